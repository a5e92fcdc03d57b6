import Verif.Lemmas.MsRead
import Verif.Props.RenderStmt
import Verif.Model.SqlserverSql

/-!
# The files of a SQL Server migration are read back (C66)
-/

namespace Sqddl.Sqlserver
open Go SqlSpec DdlText CatalogSpec Sqddl.Render Sqddl.Files MsText
open Sqddl.Wipe (qualified buffer addStmt)
open MsText (Act Stmt readStmt readAct)

/-! ## Scripts -/

/-- A text that is these statements. -/
def IsScript (cur s : Str) (sts : List MsText.Stmt) : Prop :=
  ∃ (tss : List (List Tok)) (raw : List MsText.Stmt),
    Reads .sqlserver s (tss.flatMap fun ts => ts ++ [.punct ';']) ∧
    (∀ ts ∈ tss, Tok.punct ';' ∉ ts) ∧
    (∀ rest, readAll (keywords .sqlserver) (tss ++ rest) =
      (readAll (keywords .sqlserver) rest).map (raw ++ ·)) ∧
    raw.map (MsText.Stmt.resolve cur) = sts

theorem IsScript.append {cur s t : Str} {a b : List MsText.Stmt} (h1 : IsScript cur s a)
    (h2 : IsScript cur t b) : IsScript cur (s ++ t) (a ++ b) := by
  obtain ⟨xs, ra, r1, n1, m1, e1⟩ := h1
  obtain ⟨ys, rb, r2, n2, m2, e2⟩ := h2
  refine ⟨xs ++ ys, ra ++ rb, by rw [List.flatMap_append]; exact r1.append r2, ?_, ?_, by
    rw [List.map_append, e1, e2]⟩
  · intro ts hts
    rcases List.mem_append.1 hts with h | h
    · exact n1 ts h
    · exact n2 ts h
  · intro rest
    rw [List.append_assoc, m1, m2]
    cases readAll (keywords .sqlserver) rest <;> simp

theorem IsScript.run {cur s : Str} {sts : List MsText.Stmt} (h : IsScript cur s sts) :
    MsText.runScript (keywords .sqlserver) cur s = some sts := by
  obtain ⟨tss, raw, r, n, m, e⟩ := h
  have := m []
  unfold MsText.runScript
  rw [lex_of_readsP r.readsP, Option.bind_some, statements_flatMap tss n]
  simp only [List.append_nil] at this
  simp [this, readAll, e]

/-- Texts that are these statements. -/
inductive Texts (cur : Str) : List Str → List MsText.Stmt → Prop
  | nil : Texts cur [] []
  | cons {s : Str} {ss : List Str} {a b : List MsText.Stmt} : s ≠ [] → IsScript cur s a →
      Texts cur ss b → Texts cur (s :: ss) (a ++ b)

theorem Texts.append {cur : Str} {ss ss' : List Str} {a b : List MsText.Stmt} (h1 : Texts cur ss a)
    (h2 : Texts cur ss' b) : Texts cur (ss ++ ss') (a ++ b) := by
  induction h1 with
  | nil => exact h2
  | cons h0 h _ ih => rw [List.append_assoc]; exact .cons h0 h ih

theorem Texts.one {cur s : Str} {a : List MsText.Stmt} (h : s ≠ [] ∧ IsScript cur s a) :
    Texts cur [s] a := by
  have := Texts.cons h.1 h.2 Texts.nil
  simpa using this

theorem Texts.flatMap {α : Type} {cur : Str} (xs : List α) (f : α → List Str)
    (g : α → List MsText.Stmt) (h : ∀ x ∈ xs, Texts cur (f x) (g x)) :
    Texts cur (xs.flatMap f) (xs.flatMap g) := by
  induction xs with
  | nil => exact .nil
  | cons x xs ih =>
    simp only [List.flatMap_cons]
    exact (h x (by simp)).append (ih fun y hy => h y (by simp [hy]))

theorem Texts.map {α : Type} {cur : Str} (xs : List α) (f : α → Str) (g : α → MsText.Stmt)
    (h : ∀ x ∈ xs, f x ≠ [] ∧ IsScript cur (f x) [g x]) : Texts cur (xs.map f) (xs.map g) := by
  induction xs with
  | nil => exact .nil
  | cons x xs ih =>
    simp only [List.map_cons]
    exact Texts.cons (a := [g x]) (h x (by simp)).1 (h x (by simp)).2
      (ih fun y hy => h y (by simp [hy]))

/-- A buffer of statements is read as the statements. -/
theorem Texts.script {cur : Str} {ss : List Str} {sts : List MsText.Stmt} (h : Texts cur ss sts) :
    IsScript cur (buffer ss) sts := by
  have nil : IsScript cur [] [] := ⟨[], [], Reads.nil _, by simp, by
    intro rest; cases e : readAll (keywords .sqlserver) rest <;> simp [e], rfl⟩
  have e : ∀ ss : List Str, ∀ s : Str, s ≠ [] →
      buffer (s :: ss) = s ++ ss.flatMap fun q => b!"\n" ++ q := by
    intro ss s hs
    simp only [buffer, List.foldl_cons]
    have : addStmt [] s = s := by simp [addStmt]
    rw [this, Wipe.buffer_fold _ _ hs]
  have tail : ∀ {ss : List Str} {b : List MsText.Stmt}, Texts cur ss b →
      IsScript cur (ss.flatMap fun q => b!"\n" ++ q) b := by
    intro ss b h
    induction h with
    | nil => exact nil
    | cons h0 h _ ih =>
      simp only [List.flatMap_cons]
      refine IsScript.append ?_ ih
      obtain ⟨tss, raw, r, n, m, e⟩ := h
      refine ⟨tss, raw, ?_, n, m, e⟩
      have := (reads_lit .sqlserver b!"\n" (by decide) (by decide)).append r
      have e : stoks b!"\n" = [] := by decide
      rw [e] at this
      exact this
  cases h with
  | nil => exact nil
  | cons h0 h ht =>
    rw [e _ _ h0]
    exact h.append (tail ht)

/-- One statement. -/
theorem readAll_one {ts : List Tok} {raw : MsText.Stmt}
    (h : readStmt (keywords .sqlserver) ts = some raw) (rest : List (List Tok)) :
    readAll (keywords .sqlserver) ([ts] ++ rest) =
      (readAll (keywords .sqlserver) rest).map ([raw] ++ ·) := by
  rw [List.cons_append, List.nil_append]
  conv => lhs; unfold readAll
  simp only [h]; rfl

/-- A text that is written before a semicolon. -/
theorem isScript_of {cur s : Str} {ts : List Tok} {st : MsText.Stmt} (e : Str)
    (h : ReadsP .sqlserver s ts) (hs : bal 0 ts) (he : IsGap e [.punct ';'])
    (hr : (MsText.readStmt (keywords .sqlserver) ts).map (MsText.Stmt.resolve cur) = some st) :
    s ++ e ≠ [] ∧ IsScript cur (s ++ e) [st] := by
  obtain ⟨raw, h1, h2⟩ := Option.map_eq_some_iff.1 hr
  refine ⟨?_, [ts], [raw], ?_, ?_, readAll_one h1, by simp [h2]⟩
  · have := he.1.2.2.1
    simp [this]
  · simpa using h.lit he
  · simpa using flat_no_semi 0 ts hs

/-- A statement of Verif.Spec.DdlText. -/
theorem isScript_base {cur s : Str} {st : DdlText.Stmt} (h : IsStmt .sqlserver cur s st)
    (ha : (∃ n xs, st = .createTable n xs) ∨ ∃ x, st = .createIndex x) :
    s ≠ [] ∧ IsScript cur s [.base st] := by
  obtain ⟨h0, ts, h1, h2, h3⟩ := h
  obtain ⟨raw, h4, h5⟩ := Option.map_eq_some_iff.1 h3
  have := readStmt_base ts raw h4 (by
    subst h5
    cases raw <;> simp [DdlText.Stmt.resolve] at ha ⊢)
  exact ⟨h0, [ts], [.base raw], by simpa using h1, by simpa using h2, readAll_one this, by
    simp [MsText.Stmt.resolve, h5]⟩

/-! ## String literals -/

theorem readQuoted_doubleAll (q : Char) (s rest : Str) :
    readQuoted q (doubleAll q s ++ rest) =
      (readQuoted q rest).map fun (v, t) => (s ++ v, t) := by
  induction s with
  | nil => cases e : readQuoted q rest <;> simp [doubleAll, e]
  | cons c r ih =>
    unfold doubleAll
    by_cases h : c = q
    · subst h
      rw [if_pos rfl, List.cons_append, List.cons_append, readQuoted_pair, ih]
      cases readQuoted c rest <;> simp
    · rw [if_neg h, List.cons_append, readQuoted_cons_ne h, ih]
      cases readQuoted q rest <;> simp

theorem doubleAll_plain (q : Char) (s : Str) (h : s.all (· != q)) : doubleAll q s = s := by
  induction s with
  | nil => rfl
  | cons c r ih =>
    simp only [List.all_cons, Bool.and_eq_true, bne_iff_ne, ne_eq] at h
    rw [doubleAll, if_neg h.1, ih h.2]

/-- A string literal that contains an escaped text between plain texts. -/
theorem readsP_strEsc (pre s suf : Str) (hp : pre.all (· != '\'')) (hu : suf.all (· != '\''))
    (hs : ¬ HasInnerPair '\'' s) :
    ReadsP .sqlserver (b!"'" ++ pre ++ escapeQuote '\'' s ++ suf ++ b!"'") [.str (pre ++ s ++ suf)] := by
  intro rest hr
  have e : readQuoted '\'' (pre ++ (escapeQuote '\'' s ++ (suf ++ ('\'' :: rest)))) =
      some (pre ++ s ++ suf, rest) := by
    rw [← doubleAll_plain '\'' pre hp, ← doubleAll_plain '\'' suf hu, escapeQuote_eq_doubleAll _ _ hs,
      readQuoted_doubleAll, readQuoted_doubleAll, readQuoted_doubleAll, readQuoted_end hr.2.1,
      doubleAll_plain '\'' pre hp, doubleAll_plain '\'' suf hu]
    simp
  have e2 : b!"'" ++ pre ++ escapeQuote '\'' s ++ suf ++ b!"'" ++ rest =
      '\'' :: (pre ++ (escapeQuote '\'' s ++ (suf ++ ('\'' :: rest)))) := by
    simp [List.append_assoc]
  rw [e2, lex_cons]
  have ho : '\'' ≠ openQ .sqlserver := by decide
  have hs : isSpace '\'' = false := by decide
  simp [lexOne, hs, ho, readString, e]

/-- A string literal that is an escaped text. -/
theorem readsP_esc (s : Str) (hs : ¬ HasInnerPair '\'' s) :
    ReadsP .sqlserver (b!"'" ++ escapeQuote '\'' s ++ b!"'") [.str s] := by
  have := readsP_strEsc [] s [] rfl rfl hs
  simpa using this

/-! ## Schemas, and what is dropped -/

/-- C66: CREATE SCHEMA. -/
theorem createSchema_isScript (cur n : Str) (h : PlainName .sqlserver n)
    (h1 : ¬ HasInnerPair '\'' n) (h2 : ¬ HasInnerPair '\'' (quoteIdentifier .sqlserver n)) :
    createSchema .sqlserver n ≠ [] ∧
    IsScript cur (createSchema .sqlserver n) [.createSchema n n] := by
  have hi : readInner (keywords .sqlserver) (b!"CREATE SCHEMA " ++ quoteIdentifier .sqlserver n ++ []) =
      some n := by
    have p := (reads_lit .sqlserver b!"CREATE SCHEMA " (by decide) (by decide)).append_p
      (readsP_ident .sqlserver n)
    have e : stoks b!"CREATE SCHEMA " = [.word b!"CREATE", .word b!"SCHEMA"] := by decide
    rw [e] at p
    unfold readInner
    rw [List.append_nil, lex_of_readsP p]
    simp [kws_word, kws_end, readOne_ident .sqlserver n h]
  have p := ((reads_lit .sqlserver b!"IF SCHEMA_ID(" (by decide) (by decide)).append_p
    (readsP_esc n h1)).piece (Piece.lit_then .sqlserver b!") IS NULL EXEC("
      [.punct ')', .word b!"IS", .word b!"NULL", .word b!"EXEC", .punct '('] _ _ (by decide)
      ((readsP_strEsc b!"CREATE SCHEMA " (quoteIdentifier .sqlserver n) [] (by decide) rfl h2).piece
        (Piece.lit .sqlserver b!")" [.punct ')'] (by decide))))
  have e : stoks b!"IF SCHEMA_ID(" = [.word b!"IF", .word b!"SCHEMA_ID", .punct '('] := by decide
  rw [e] at p
  have := isScript_of (cur := cur) (st := .createSchema n n) b!";\n" p (by
    simp [bal, deeper]) gap_semi (by
    exact congrArg (Option.map (MsText.Stmt.resolve cur)) (readStmt_createSchema n n _ hi))
  simpa [createSchema, List.append_assoc] using this

/-- C66: DROP SCHEMA. -/
theorem dropSchema_isScript (cur n : Str) (h : PlainName .sqlserver n) :
    b!"DROP SCHEMA " ++ quoteIdentifier .sqlserver n ++ b!";\n" ≠ [] ∧
    IsScript cur (b!"DROP SCHEMA " ++ quoteIdentifier .sqlserver n ++ b!";\n") [.dropSchema n] := by
  have p := (reads_lit .sqlserver b!"DROP SCHEMA " (by decide) (by decide)).append_p
    (readsP_ident .sqlserver n)
  have e : stoks b!"DROP SCHEMA " = [.word b!"DROP", .word b!"SCHEMA"] := by decide
  rw [e] at p
  exact isScript_of b!";\n" p (bal_append0 _ _ (by rfl) (flat_bal _ _ (flat_ident .sqlserver n)))
    gap_semi (congrArg (Option.map (MsText.Stmt.resolve cur)) (readStmt_dropSchema n h))

/-- C66: DROP VIEW, DROP TABLE, DROP PROCEDURE and DROP FUNCTION. -/
theorem drop_isScript (cur : Str) (k : Kind) (words s n : Str) (hw : words.all plainTextChar)
    (hl : words.getLast?.any wordChar = false) (he : stoks words = [.word b!"DROP", .word k.word])
    (hs : s ≠ [] → PlainName .sqlserver s) (hn : PlainName .sqlserver n) :
    words ++ qualified .sqlserver cur s n ++ b!";\n" ≠ [] ∧
    IsScript cur (words ++ qualified .sqlserver cur s n ++ b!";\n") [.drop k (fullName cur s n)] := by
  have p := (reads_lit .sqlserver words hw hl).append_p (readsP_qualified .sqlserver cur s n)
  rw [he] at p
  refine isScript_of b!";\n" p ?_ gap_semi ?_
  · exact bal_append0 _ _ (by rfl) (flat_bal _ _ (flat_qname .sqlserver _))
  · have := readStmt_drop k (tableName cur s n) (tableName_plain .sqlserver cur _ _ hs) hn
    have := congrArg (Option.map (MsText.Stmt.resolve cur)) this
    simpa [MsText.Stmt.resolve, full_tableName] using this

/-- C66: DROP INDEX. -/
theorem dropIndex_isScript (e : Env) (x : Index) (hx : PlainName .sqlserver x.indexName)
    (hs : x.tableSchema ≠ [] → PlainName .sqlserver x.tableSchema)
    (hn : PlainName .sqlserver x.tableName) :
    dropIndex e x ≠ [] ∧ IsScript e.cur (dropIndex e x)
      [.dropIndex x.indexName (fullName e.cur x.tableSchema x.tableName)] := by
  have p := (reads_lit .sqlserver b!"DROP INDEX " (by decide) (by decide)).append_p
    ((readsP_ident .sqlserver x.indexName).piece (Piece.lit_then .sqlserver b!" ON " [.word b!"ON"] _ _
      (by decide) (readsP_qualified .sqlserver e.cur x.tableSchema x.tableName)))
  have e4 : stoks b!"DROP INDEX " = [.word b!"DROP", .word b!"INDEX"] := by decide
  rw [e4] at p
  have := isScript_of (cur := e.cur)
    (st := .dropIndex x.indexName (fullName e.cur x.tableSchema x.tableName)) b!";\n" p (by
      refine bal_append0 _ _ (by rfl) (bal_append0 _ _ (flat_bal _ _ (flat_ident .sqlserver _))
        (bal_append0 _ _ (by rfl) (flat_bal _ _ (flat_qname .sqlserver _))))) gap_semi (by
      have := readStmt_dropIndex x.indexName hx (tableName e.cur x.tableSchema x.tableName)
        (tableName_plain .sqlserver e.cur _ _ hs) hn
      have := congrArg (Option.map (MsText.Stmt.resolve e.cur)) this
      simpa [MsText.Stmt.resolve, full_tableName] using this)
  simpa [dropIndex, tableSql, List.append_assoc] using this

/-! ## Parts of ALTER TABLE -/

/-- A text that is the part of an ALTER TABLE. -/
def IsAct (cur owner s : Str) (act : Act) : Prop :=
  ∃ ts raw, ReadsP .sqlserver s ts ∧ flat 0 ts ∧ readAct (keywords .sqlserver) ts = some raw ∧
    raw.resolve cur owner = act ∧ ts.head? ≠ some (.punct '.')

theorem act_owner (cur s n : Str) (a : Act) :
    a.resolve cur ((tableName cur s n).1.getD cur) = a.resolve cur s := by
  cases a <;> simp [Act.resolve, con_owner]

/-- The ALTER TABLE with a part. -/
theorem isScript_alter {cur s n part : Str} {a : Act} (hs : s ≠ [] → PlainName .sqlserver s)
    (hn : PlainName .sqlserver n) (h : IsAct cur s part a) :
    b!"ALTER TABLE " ++ qualified .sqlserver cur s n ++ (b!" " ++ part) ++ b!";\n" ≠ [] ∧
    IsScript cur (b!"ALTER TABLE " ++ qualified .sqlserver cur s n ++ (b!" " ++ part) ++ b!";\n")
      [.alter (fullName cur s n) a] := by
  obtain ⟨ts, raw, h1, h2, h3, h4, h5⟩ := h
  have p := (reads_lit .sqlserver b!"ALTER TABLE " (by decide) (by decide)).append_p
    ((readsP_qualified .sqlserver cur s n).piece (Piece.lit_then .sqlserver b!" " [] _ _ (by decide) h1))
  have e4 : stoks b!"ALTER TABLE " = [.word b!"ALTER", .word b!"TABLE"] := by decide
  rw [e4] at p
  simp only [← List.append_assoc, List.nil_append] at p
  have hst := readStmt_alter (tableName cur s n) (tableName_plain .sqlserver cur _ _ hs) hn ts raw h2 h3 h5
  have := isScript_of (cur := cur) (st := .alter (fullName cur s n) a) b!";\n" p (by
      rw [List.append_assoc]
      apply bal_append0 _ _ (by rfl)
      exact bal_append0 _ _ (flat_bal _ _ (flat_qname .sqlserver _)) (flat_bal _ _ h2)) gap_semi (by
      simp only [List.cons_append, List.nil_append]
      rw [hst]
      simp only [Option.map_some, MsText.Stmt.resolve, full_tableName, Option.some.injEq,
        MsText.Stmt.alter.injEq, true_and]
      rw [act_owner, h4])
  simpa [List.append_assoc] using this

/-- A part that names one thing after some words. -/
theorem isAct_name (cur owner n : Str) (s : Str) (ws : List Str) (act : Act)
    (hs : s.all plainTextChar) (hl : s.getLast?.any wordChar = false)
    (hw : stoks s = ws.map Tok.word)
    (hr : readAct (keywords .sqlserver) (ws.map Tok.word ++ [identTok .sqlserver n]) = some act)
    (ha : act.resolve cur owner = act) (h0 : ws ≠ []) :
    IsAct cur owner (s ++ quoteIdentifier .sqlserver n) act := by
  have p := (reads_lit .sqlserver s hs hl).append_p (readsP_ident .sqlserver n)
  rw [hw] at p
  refine ⟨_, _, p, flat_append0 _ _ (flat_words ws) (flat_ident .sqlserver n), hr, ha, ?_⟩
  cases ws with
  | nil => exact absurd rfl h0
  | cons w r => simp

theorem isAct_dropConstraint (cur owner n : Str) (h : PlainName .sqlserver n) :
    IsAct cur owner (b!"DROP CONSTRAINT " ++ quoteIdentifier .sqlserver n) (.dropConstraint n) :=
  isAct_name cur owner n _ [b!"DROP", b!"CONSTRAINT"] _ (by decide) (by decide)
    (by decide) (readAct_dropConstraint n h) rfl (by simp)

theorem isAct_dropColumn (cur owner n : Str) (h : PlainName .sqlserver n) :
    IsAct cur owner (b!"DROP COLUMN " ++ quoteIdentifier .sqlserver n) (.dropColumn n) :=
  isAct_name cur owner n _ [b!"DROP", b!"COLUMN"] _ (by decide) (by decide)
    (by decide) (readAct_dropColumn n h) rfl (by simp)

theorem isAct_addColumn (cur owner coll : Str) (c : Column) (h : ColumnOk .sqlserver coll false c) :
    IsAct cur owner (b!"ADD " ++ columnDef .sqlserver coll c false)
      (.addColumn (colOf .sqlserver coll false c)) := by
  obtain ⟨ty, p, ho⟩ := piece_columnBody .sqlserver coll false c h
  have p1 := (reads_lit .sqlserver b!"ADD " (by decide) (by decide)).append_p
    ((readsP_ident .sqlserver c.columnName).piece p)
  have e : stoks b!"ADD " = [.word b!"ADD"] := by decide
  rw [e] at p1
  exact ⟨_, _, p1, flat_append0 _ _ (by rfl) (flat_col .sqlserver _ ty ho),
    readAct_addColumn _ ty ho, rfl, by simp⟩

theorem isAct_addConstraint (cur owner : Str) (c : Constraint) (h : ConstraintOk .sqlserver cur c) :
    IsAct cur owner (b!"ADD " ++ constraintDef .sqlserver cur c)
      (.addConstraint (conOf .sqlserver cur c)) := by
  obtain ⟨p, ok⟩ := readsP_constraintDef .sqlserver cur c h
  have he : ∀ m es p, (writtenCon .sqlserver cur c).kind ≠ .exclude m es p := by
    intro m es q hk
    have ht := h.type
    simp only [List.mem_cons, List.not_mem_nil, or_false] at ht
    rcases ht with e | e | e | e | e
    · simp [writtenCon, e, conOf, kindOf] at hk
    · simp [writtenCon, e, conOf, kindOf] at hk
    · simp [writtenCon, e] at hk
    · simp [writtenCon, e, conOf, kindOf] at hk
    · exact absurd (h.exclude e).postgres (by decide)
  have p1 := (reads_lit .sqlserver b!"ADD " (by decide) (by decide)).append_p p
  have e : stoks b!"ADD " = [.word b!"ADD"] := by decide
  rw [e] at p1
  refine ⟨_, _, p1, flat_append0 _ _ (by rfl) (flat_con .sqlserver _ ok),
    readAct_addConstraint _ ok he, ?_, by simp⟩
  have := resolve_writtenCon .sqlserver cur c h
  simp only [Act.resolve, Act.addConstraint.injEq]
  rw [← this]
  rfl

/-! ## The block that drops a default -/

theorem reads_punct (c : Char) (h : lexOne .sqlserver c = fun r => some (some (.punct c), r)) :
    Reads .sqlserver [c] [.punct c] := fun rest => by
  rw [List.cons_append, List.nil_append, lex_cons, h]
  rfl

theorem reads_cast {s s' : Str} {ts ts' : List Tok} (h : Reads .sqlserver s ts) (e1 : s = s')
    (e2 : ts = ts') : Reads .sqlserver s' ts' := by subst e1; subst e2; exact h

/-- The tokens of the statement that drops the constraint. -/
def execToks (q : Str) : List Tok :=
  [.word b!"EXEC", .punct '(', .str q, .punct '+', .punct '@', .word b!"name", .punct ')']

theorem readAll_block {a b c d : List Tok} {st : MsText.Stmt}
    (h : readStmt (keywords .sqlserver) a = none)
    (hb : readBlock (keywords .sqlserver) a b c d = some st) (rest : List (List Tok)) :
    readAll (keywords .sqlserver) ([a, b, c, d] ++ rest) =
      (readAll (keywords .sqlserver) rest).map ([st] ++ ·) := by
  simp only [List.cons_append, List.nil_append]
  conv => lhs; unfold readAll
  simp only [h, hb]; rfl

theorem reads_at : Reads .sqlserver ['@'] [.punct '@'] :=
  reads_punct '@' (by funext r; simp [lexOne, isSpace, openQ, wordChar])

theorem reads_plus : Reads .sqlserver ['+'] [.punct '+'] :=
  reads_punct '+' (by funext r; simp [lexOne, isSpace, openQ, wordChar])

theorem reads_lookupText : Reads .sqlserver lookupText (declare ++ (.punct ';' :: lookup)) := by
  have lit := fun s h h1 => reads_lit .sqlserver s h h1
  have p := ((((lit b!"BEGIN\n    DECLARE " (by decide) (by decide)).append reads_at).append
    (lit b!"name NVARCHAR(255);\n    SELECT\n        " (by decide) (by decide))).append reads_at).append
    (lit b!"name = default_constraints.name\n    FROM\n        sys.default_constraints\n        JOIN sys.tables ON tables.object_id = default_constraints.parent_object_id\n        JOIN sys.columns ON columns.column_id = default_constraints.parent_column_id\n    WHERE\n        SCHEMA_NAME(tables.schema_id) = " (by decide +kernel) (by decide +kernel))
  have e : stoks b!"BEGIN\n    DECLARE " ++ [.punct '@'] ++
      stoks b!"name NVARCHAR(255);\n    SELECT\n        " ++ [.punct '@'] ++
      stoks b!"name = default_constraints.name\n    FROM\n        sys.default_constraints\n        JOIN sys.tables ON tables.object_id = default_constraints.parent_object_id\n        JOIN sys.columns ON columns.column_id = default_constraints.parent_column_id\n    WHERE\n        SCHEMA_NAME(tables.schema_id) = " =
      declare ++ (.punct ';' :: lookup) := by decide +kernel
  rw [e] at p
  exact p

theorem no_semi_block : Tok.punct ';' ∉ declare ∧ Tok.punct ';' ∉ lookup ∧ Tok.punct ';' ∉ andTable ∧
    Tok.punct ';' ∉ andColumn := by decide +kernel

/-- C66: the block that drops a default. -/
theorem dropDefault_isScript (e : Env) (t : Table) (c : Column)
    (hs : PlainName .sqlserver (alterSchema e t)) (hn : PlainName .sqlserver t.tableName)
    (h1 : ¬ HasInnerPair '\'' (alterSchema e t)) (h2 : ¬ HasInnerPair '\'' t.tableName)
    (h3 : ¬ HasInnerPair '\'' c.columnName)
    (h4 : ¬ HasInnerPair '\'' (tableSql e (alterSchema e t) t.tableName)) :
    dropDefault e t c ≠ [] ∧ IsScript e.cur (dropDefault e t c)
      [.dropDefault (alterSchema e t) t.tableName c.columnName
        (fullName e.cur (alterSchema e t) t.tableName)] := by
  have lit := fun s h h1 => reads_lit .sqlserver s h h1
  have pA := reads_lookupText
  have pB := pA.append_p ((readsP_esc _ h1).piece
    ((Piece.lit_then .sqlserver b!"\n        AND tables.name = " andTable _ _ (by decide +kernel)
      (readsP_esc _ h2)).append
     (Piece.lit_then .sqlserver b!"\n        AND columns.name = " andColumn _ _ (by decide +kernel)
      (readsP_esc _ h3))))
  have pC := (pB.lit (t := b!"\n    ;\n    EXEC(") (us := [.punct ';', .word b!"EXEC", .punct '('])
    (by decide)).append_p (readsP_strEsc b!"ALTER TABLE "
      (tableSql e (alterSchema e t) t.tableName) b!" DROP CONSTRAINT " (by decide) (by decide) h4)
  have pD := ((((pC.lit (t := b!" ") (us := []) (by decide)).append reads_plus).append
    (lit b!" " (by decide) (by decide))).append reads_at).append
    (lit b!"name);\nEND;\n" (by decide) (by decide))
  have eD : stoks b!"name);\nEND;\n" = [.word b!"name", .punct ')', .punct ';', .word b!"END",
    .punct ';'] := by decide
  have eS : stoks b!" " = [] := by decide
  rw [eD, eS] at pD
  have hd : readDropOf (keywords .sqlserver) (b!"ALTER TABLE " ++
      tableSql e (alterSchema e t) t.tableName ++ b!" DROP CONSTRAINT ") =
      some (tableName e.cur (alterSchema e t) t.tableName) := by
    have p := (reads_lit .sqlserver b!"ALTER TABLE " (by decide) (by decide)).append_p
      ((readsP_qualified .sqlserver e.cur (alterSchema e t) t.tableName).piece
        (Piece.lit .sqlserver b!" DROP CONSTRAINT " [.word b!"DROP", .word b!"CONSTRAINT"] (by decide)))
    have e4 : stoks b!"ALTER TABLE " = [.word b!"ALTER", .word b!"TABLE"] := by decide
    rw [e4] at p
    have e5 := readName_qname .sqlserver (tableName e.cur (alterSchema e t) t.tableName)
      (tableName_plain .sqlserver e.cur _ _ fun _ => hs) hn [.word b!"DROP", .word b!"CONSTRAINT"]
      (by simp)
    unfold readDropOf tableSql
    rw [List.append_assoc, lex_of_readsP p]
    simp [kws_word, kws_end, e5]
  have hb : readBlock (keywords .sqlserver) declare
      (lookup ++ (.str (alterSchema e t) :: (andTable ++ (.str t.tableName ::
        (andColumn ++ [.str c.columnName])))))
      (execToks (b!"ALTER TABLE " ++ tableSql e (alterSchema e t) t.tableName ++ b!" DROP CONSTRAINT "))
      [.word b!"END"] = some (.dropDefault (alterSchema e t) t.tableName c.columnName
        (tableName e.cur (alterSchema e t) t.tableName)) := by
    unfold readBlock
    rw [if_pos ⟨rfl, rfl⟩, readLookup_eq, Option.bind_some]
    have : readExec (keywords .sqlserver) (execToks (b!"ALTER TABLE " ++
        tableSql e (alterSchema e t) t.tableName ++ b!" DROP CONSTRAINT ")) =
        some (tableName e.cur (alterSchema e t) t.tableName) := by
      rw [← hd]
      simp only [execToks, readExec, and_self, if_true]
    rw [this]; rfl
  have h0 : lookupText ≠ [] := List.cons_ne_nil _ _
  refine ⟨by simp [dropDefault, h0], _, _, ?_, ?_, readAll_block declare_not hb, ?_⟩
  · refine reads_cast pD ?_ ?_
    · simp [dropDefault, List.append_assoc]
    · simp [execToks, List.append_assoc]
  · intro ts hts
    simp only [List.mem_cons, List.not_mem_nil, or_false] at hts
    rcases hts with h | h | h | h
    · rw [h]; exact no_semi_block.1
    · rw [h]; simp [no_semi_block]
    · rw [h]; simp [execToks]
    · rw [h]; simp
  · simp [MsText.Stmt.resolve, full_tableName]

end Sqddl.Sqlserver
