import Verif.Lemmas.PgRead
import Verif.Props.RenderStmt
import Verif.Model.PostgresSql

/-!
# The files of a Postgres migration are read back (C66)
-/

namespace Sqddl.Postgres
open Go SqlSpec DdlText CatalogSpec Sqddl.Render Sqddl.Files PgText
open Sqddl.Wipe (qualified buffer addStmt)
open PgText (Act Stmt readStmt readAct)

/-! ## Scripts -/

/-- A text that is these statements. -/
def IsScript (cur s : Str) (sts : List PgText.Stmt) : Prop :=
  ∃ tss : List (List Tok), Reads .postgres s (tss.flatMap fun ts => ts ++ [.punct ';']) ∧
    (∀ ts ∈ tss, Tok.punct ';' ∉ ts) ∧
    tss.mapM (fun ts => (PgText.readStmt (keywords .postgres) ts).map (PgText.Stmt.resolve cur)) =
      some sts

theorem mapM_append' {α β : Type} (f : α → Option β) (xs ys : List α) (bs cs : List β)
    (h1 : xs.mapM f = some bs) (h2 : ys.mapM f = some cs) :
    (xs ++ ys).mapM f = some (bs ++ cs) := by
  rw [List.mapM_append, h1, h2]; rfl

theorem IsScript.append {cur s t : Str} {a b : List PgText.Stmt} (h1 : IsScript cur s a)
    (h2 : IsScript cur t b) : IsScript cur (s ++ t) (a ++ b) := by
  obtain ⟨xs, r1, n1, m1⟩ := h1
  obtain ⟨ys, r2, n2, m2⟩ := h2
  refine ⟨xs ++ ys, by rw [List.flatMap_append]; exact r1.append r2, ?_, mapM_append' _ _ _ _ _ m1 m2⟩
  intro ts hts
  rcases List.mem_append.1 hts with h | h
  · exact n1 ts h
  · exact n2 ts h

theorem IsScript.run {cur s : Str} {sts : List PgText.Stmt} (h : IsScript cur s sts) :
    PgText.runScript (keywords .postgres) cur s = some sts := by
  obtain ⟨tss, r, n, m⟩ := h
  unfold PgText.runScript
  rw [lex_of_readsP r.readsP, Option.bind_some, statements_flatMap tss n, m]

/-- Texts that are these statements. -/
inductive Texts (cur : Str) : List Str → List PgText.Stmt → Prop
  | nil : Texts cur [] []
  | cons {s : Str} {ss : List Str} {a b : List PgText.Stmt} : s ≠ [] → IsScript cur s a →
      Texts cur ss b → Texts cur (s :: ss) (a ++ b)

theorem Texts.append {cur : Str} {ss ss' : List Str} {a b : List PgText.Stmt} (h1 : Texts cur ss a)
    (h2 : Texts cur ss' b) : Texts cur (ss ++ ss') (a ++ b) := by
  induction h1 with
  | nil => exact h2
  | cons h0 h _ ih => rw [List.append_assoc]; exact .cons h0 h ih

theorem Texts.one {cur s : Str} {a : List PgText.Stmt} (h0 : s ≠ []) (h : IsScript cur s a) :
    Texts cur [s] a := by
  have := Texts.cons h0 h Texts.nil
  simpa using this

theorem Texts.flatMap {α : Type} {cur : Str} (xs : List α) (f : α → List Str)
    (g : α → List PgText.Stmt) (h : ∀ x ∈ xs, Texts cur (f x) (g x)) :
    Texts cur (xs.flatMap f) (xs.flatMap g) := by
  induction xs with
  | nil => exact .nil
  | cons x xs ih =>
    simp only [List.flatMap_cons]
    exact (h x (by simp)).append (ih fun y hy => h y (by simp [hy]))

theorem Texts.map {α : Type} {cur : Str} (xs : List α) (f : α → Str) (g : α → List PgText.Stmt)
    (h : ∀ x ∈ xs, f x ≠ [] ∧ IsScript cur (f x) (g x)) : Texts cur (xs.map f) (xs.flatMap g) := by
  induction xs with
  | nil => exact .nil
  | cons x xs ih =>
    simp only [List.map_cons, List.flatMap_cons]
    exact .cons (h x (by simp)).1 (h x (by simp)).2 (ih fun y hy => h y (by simp [hy]))

/-- A buffer of statements is read as the statements. -/
theorem Texts.script {cur : Str} {ss : List Str} {sts : List PgText.Stmt} (h : Texts cur ss sts) :
    IsScript cur (buffer ss) sts := by
  have e : ∀ ss : List Str, ∀ s : Str, s ≠ [] →
      buffer (s :: ss) = s ++ ss.flatMap fun q => b!"\n" ++ q := by
    intro ss s hs
    simp only [buffer, List.foldl_cons]
    have : addStmt [] s = s := by simp [addStmt]
    rw [this, Wipe.buffer_fold _ _ hs]
  have tail : ∀ {ss : List Str} {b : List PgText.Stmt}, Texts cur ss b →
      IsScript cur (ss.flatMap fun q => b!"\n" ++ q) b := by
    intro ss b h
    induction h with
    | nil => exact ⟨[], Reads.nil _, by simp, rfl⟩
    | cons h0 h _ ih =>
      simp only [List.flatMap_cons]
      refine IsScript.append ?_ ih
      obtain ⟨tss, r, n, m⟩ := h
      refine ⟨tss, ?_, n, m⟩
      have := (reads_lit .postgres b!"\n" (by decide) (by decide)).append r
      have e : stoks b!"\n" = [] := by decide
      rw [e] at this
      exact this
  cases h with
  | nil => exact ⟨[], Reads.nil _, by simp, rfl⟩
  | cons h0 h ht =>
    rw [e _ _ h0]
    exact h.append (tail ht)

/-- A text that is written before a semicolon. -/
theorem isScript_of {cur s : Str} {ts : List Tok} {st : PgText.Stmt} (e : Str)
    (h : ReadsP .postgres s ts) (hs : bal 0 ts) (he : IsGap e [.punct ';'])
    (hr : (PgText.readStmt (keywords .postgres) ts).map (PgText.Stmt.resolve cur) = some st) :
    s ++ e ≠ [] ∧ IsScript cur (s ++ e) [st] := by
  refine ⟨?_, [ts], ?_, ?_, ?_⟩
  · have := he.1.2.2.1
    simp [this]
  · simpa using h.lit he
  · simpa using flat_no_semi 0 ts hs
  · simp [hr]

/-- A statement of Verif.Spec.DdlText. -/
theorem isScript_base {cur s : Str} {st : DdlText.Stmt} (h : IsStmt .postgres cur s st)
    (ha : ∀ n as, st ≠ .alterTable n as) : s ≠ [] ∧ IsScript cur s [.base st] := by
  obtain ⟨h0, ts, h1, h2, h3⟩ := h
  refine ⟨h0, [ts], by simpa using h1, by simpa using h2, ?_⟩
  obtain ⟨raw, h4, rfl⟩ := Option.map_eq_some_iff.1 h3
  have := readStmt_base ts raw h4 (by
    intro n as e; subst e
    exact ha _ _ rfl)
  simp [this, PgText.Stmt.resolve]

/-! ## Parts of ALTER TABLE -/

/-- A text that is one part of ALTER TABLE. -/
def IsAct (cur owner s : Str) (act : Act) : Prop :=
  ∃ ts raw, ReadsP .postgres s ts ∧ flat 0 ts ∧ readAct (keywords .postgres) ts = some raw ∧
    raw.resolve cur owner = act ∧ ts.head? ≠ some (.punct '.')

theorem act_owner (cur s n : Str) (a : Act) :
    a.resolve cur ((tableName cur s n).1.getD cur) = a.resolve cur s := by
  cases a <;> simp [Act.resolve, con_owner]

/-- The ALTER TABLE of one part. -/
theorem isScript_alter {cur s n part : Str} {a : Act} (hs : s ≠ [] → PlainName .postgres s)
    (hn : PlainName .postgres n) (h : IsAct cur s part a) (e : Str) (he : IsGap e [.punct ';']) :
    b!"ALTER TABLE " ++ qualified .postgres cur s n ++ (b!" " ++ part) ++ e ≠ [] ∧
    IsScript cur (b!"ALTER TABLE " ++ qualified .postgres cur s n ++ (b!" " ++ part) ++ e)
      [.alter (fullName cur s n) [a]] := by
  obtain ⟨ts, raw, h1, h2, h3, h4, h5⟩ := h
  have p := (reads_lit .postgres b!"ALTER TABLE " (by decide) (by decide)).append_p
    ((readsP_qualified .postgres cur s n).piece (Piece.lit_then .postgres b!" " [] _ _ (by decide) h1))
  have e4 : stoks b!"ALTER TABLE " = [.word b!"ALTER", .word b!"TABLE"] := by decide
  rw [e4] at p
  simp only [← List.append_assoc, List.nil_append] at p
  have hst := readStmt_alter (tableName cur s n) (tableName_plain .postgres cur _ _ hs) hn ts raw h2 h3 h5
  have := isScript_of (cur := cur) (st := .alter (fullName cur s n) [a]) e p (by
      rw [List.append_assoc]
      apply bal_append0 _ _ (by rfl)
      exact bal_append0 _ _ (flat_bal _ _ (flat_qname .postgres _)) (flat_bal _ _ h2)) he (by
      simp only [List.cons_append, List.nil_append]
      have e5 := hst
      rw [e5]
      simp only [Option.map_some, PgText.Stmt.resolve, full_tableName, List.map_cons, List.map_nil,
        Option.some.injEq, PgText.Stmt.alter.injEq, true_and, List.cons.injEq, and_true]
      rw [act_owner, h4])
  simpa [List.append_assoc] using this

/-- A part that names one thing after some words. -/
theorem isAct_name (cur owner n : Str) (s : Str) (ws : List Str) (act : Act)
    (hs : s.all plainTextChar) (hl : s.getLast?.any wordChar = false)
    (hw : stoks s = ws.map Tok.word)
    (hr : readAct (keywords .postgres) (ws.map Tok.word ++ [identTok .postgres n]) = some act)
    (ha : act.resolve cur owner = act) (h0 : ws ≠ []) :
    IsAct cur owner (s ++ quoteIdentifier .postgres n) act := by
  have p := (reads_lit .postgres s hs hl).append_p (readsP_ident .postgres n)
  rw [hw] at p
  refine ⟨_, _, p, flat_append0 _ _ (flat_words ws) (flat_ident .postgres n), hr, ha, ?_⟩
  cases ws with
  | nil => exact absurd rfl h0
  | cons w r => simp

theorem isAct_dropConstraintIf (cur owner n : Str) (h : PlainName .postgres n) :
    IsAct cur owner (b!"DROP CONSTRAINT IF EXISTS " ++ quoteIdentifier .postgres n)
      (.dropConstraint true n) :=
  isAct_name cur owner n _ [b!"DROP", b!"CONSTRAINT", b!"IF", b!"EXISTS"] _ (by decide) (by decide)
    (by decide) (readAct_dropConstraintIf n h) rfl (by simp)

theorem isAct_dropConstraint (cur owner n : Str) (h : PlainName .postgres n) :
    IsAct cur owner (b!"DROP CONSTRAINT " ++ quoteIdentifier .postgres n)
      (.dropConstraint false n) :=
  isAct_name cur owner n _ [b!"DROP", b!"CONSTRAINT"] _ (by decide) (by decide)
    (by decide) (readAct_dropConstraint n h) rfl (by simp)

theorem isAct_dropColumn (cur owner n : Str) (h : PlainName .postgres n) :
    IsAct cur owner (b!"DROP COLUMN IF EXISTS " ++ quoteIdentifier .postgres n) (.dropColumn n) :=
  isAct_name cur owner n _ [b!"DROP", b!"COLUMN", b!"IF", b!"EXISTS"] _ (by decide) (by decide)
    (by decide) (readAct_dropColumn n h) rfl (by simp)

theorem isAct_validate (cur owner n : Str) (h : PlainName .postgres n) :
    IsAct cur owner (b!"VALIDATE CONSTRAINT " ++ quoteIdentifier .postgres n) (.validate n) :=
  isAct_name cur owner n _ [b!"VALIDATE", b!"CONSTRAINT"] _ (by decide) (by decide)
    (by decide) (readAct_validate n h) rfl (by simp)

theorem isAct_addColumn (cur owner coll : Str) (c : Column) (h : ColumnOk .postgres coll false c) :
    IsAct cur owner (b!"ADD COLUMN " ++ columnDef .postgres coll c false)
      (.addColumn (colOf .postgres coll false c)) := by
  obtain ⟨ty, p, ho⟩ := piece_columnBody .postgres coll false c h
  have p1 := (reads_lit .postgres b!"ADD COLUMN " (by decide) (by decide)).append_p
    ((readsP_ident .postgres c.columnName).piece p)
  have e : stoks b!"ADD COLUMN " = [.word b!"ADD", .word b!"COLUMN"] := by decide
  rw [e] at p1
  exact ⟨_, _, p1, flat_append0 _ _ (by rfl) (flat_col .postgres _ ty ho),
    readAct_addColumn _ ty ho, rfl, by simp⟩

/-- The constraint, NOT VALID or not. -/
def withValid (v : Bool) (c : Con) : Con := { c with notValid := v }

theorem isAct_addConstraint (cur : Str) (c : Constraint) (h : ConstraintOk .postgres cur c) (v : Bool) :
    IsAct cur c.tableSchema (b!"ADD " ++ constraintDef .postgres cur c ++ opt v b!" NOT VALID")
      (.addConstraint (withValid v (conOf .postgres cur c))) := by
  obtain ⟨p, ok⟩ := readsP_constraintDef .postgres cur c h
  have p1 := ((reads_lit .postgres b!"ADD " (by decide) (by decide)).append_p p).piece
    (piece_optWords .postgres v b!" NOT VALID" [b!"NOT", b!"VALID"] (by decide))
  have e : stoks b!"ADD " = [.word b!"ADD"] := by decide
  rw [e, List.append_assoc, List.append_assoc [Tok.word b!"ADD"]] at p1
  rw [List.append_assoc]
  refine ⟨_, _, p1, flat_append0 _ _ (by rfl) (flat_append0 _ _ (flat_con .postgres _ ok)
    (flat_optWords _ _)), readAct_addConstraint _ ok v, ?_, by simp⟩
  have := resolve_writtenCon .postgres cur c h
  simp only [Act.resolve, Act.addConstraint.injEq]
  rw [← this]
  simp [withValid, Con.resolve]

theorem readsP_self {n : Str} (h : SelfName (keywords .postgres) n) : ReadsP .postgres n [.word n] :=
  (reads_word .postgres n h.nonempty h.chars).readsP

end Sqddl.Postgres
