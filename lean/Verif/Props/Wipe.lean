import Verif.Model.Wipe
import Verif.Spec.Wipe
import Verif.Lemmas.Lex

/-!
# C44: wipe
-/

namespace Sqddl.Wipe
open Go SqlSpec WipeSpec

/-- What the database contains, as reported by the introspector. -/
structure Content where
  views : List View := []
  fkeys : List Constraint := []
  tables : List Table := []
  routines : List Routine := []
  enums : List Enum := []
  domains : List Domain := []
  extensions : List Str := []

/-- The introspector answers without errors. -/
def Content.answers (c : Content) (cur : Str) : Answers where
  currentSchema := .ok cur
  views := .ok c.views
  constraints := .ok c.fkeys
  tables := .ok c.tables
  routines := .ok c.routines
  enums := .ok c.enums
  domains := .ok c.domains
  extensions := .ok c.extensions

/-- Every name is read back as itself (see C18). -/
structure Content.Plain (d : Dialect) (c : Content) : Prop where
  views : ∀ v ∈ c.views, PlainName d v.viewSchema ∧ PlainName d v.viewName
  fkeys : ∀ k ∈ c.fkeys, PlainName d k.tableSchema ∧ PlainName d k.tableName ∧
    PlainName d k.constraintName
  tables : ∀ t ∈ c.tables, PlainName d t.tableSchema ∧ PlainName d t.tableName
  routines : ∀ r ∈ c.routines, PlainName d r.routineSchema ∧ PlainName d r.routineName
  enums : ∀ e ∈ c.enums, PlainName d e.enumSchema ∧ PlainName d e.enumName
  domains : ∀ e ∈ c.domains, PlainName d e.domainSchema ∧ PlainName d e.domainName
  extensions : ∀ e ∈ c.extensions, PlainName d e

/-- The schema written in a statement. -/
def written (cur s : Str) : Option Str := if s = [] ∨ s = cur then none else some s

/-- The statements that should be run, in order: views, foreign keys, tables, routines, types. -/
def planned (d : Dialect) (cur : Str) (c : Content) : List Stmt :=
  (c.views.map fun v => .drop (if v.isMaterialized then .matview else .view)
    (written cur v.viewSchema) v.viewName (d == .postgres || d == .mysql)) ++
  (if d = .sqlite then [] else c.fkeys.map fun k =>
    .dropConstraint (written cur k.tableSchema) k.tableName k.constraintName (d == .postgres)) ++
  (if d = .sqlite ∧ c.tables ≠ [] then [.deferForeignKeys] else []) ++
  (c.tables.map fun t => .drop .table (written cur t.tableSchema) t.tableName
    (d == .postgres || d == .mysql)) ++
  (if d = .sqlite then [] else c.routines.map fun r =>
    .drop (if r.routineType = b!"PROCEDURE" then .procedure else .function)
      (written cur r.routineSchema) r.routineName (d == .postgres)) ++
  (if d = .postgres then
    (c.enums.map fun e => .drop .type (written cur e.enumSchema) e.enumName true) ++
    (c.domains.map fun e => .drop .domain (written cur e.domainSchema) e.domainName true) ++
    ((c.extensions.filter (· ≠ b!"plpgsql")).map fun e => .drop .extension none e true)
  else [])

/-! ## Reading the text -/

/-- The tokens of a name. -/
def nameToks (d : Dialect) (cur s n : Str) : List Tok :=
  (if s ≠ [] ∧ s ≠ cur then [identTok d s, .punct '.'] else []) ++ [identTok d n]

theorem reads_qualified (d : Dialect) (cur s n : Str) :
    ReadsTo d (qualified d cur s n) (nameToks d cur s n) := by
  unfold qualified nameToks
  split
  · apply Reads.append_to _ (reads_ident d n)
    exact (reads_ident d s).append (reads_punct d '.' (by simp))
      (fun rest => endsToken_punct d _ _ (by simp))
  · exact reads_ident d n

/-- The tokens at the end of a statement. -/
def tailToks (b : Bool) : List Tok := if b then [.word b!"CASCADE"] else []

theorem reads_tail (d : Dialect) (b : Bool) :
    Reads d ((if b then b!" CASCADE" else []) ++ b!";\n") (tailToks b ++ [.punct ';']) := by
  have h : Reads d b!";\n" [.punct ';'] :=
    (reads_punct d ';' (by simp)).append (reads_space d '\n' (by decide))
  unfold tailToks
  cases b
  · simpa using h
  · have hw := (reads_word d b!"CASCADE" (by decide) (by decide)).append h
      (fun rest => endsToken_punct d _ _ (by simp))
    exact (reads_space d ' ' (by decide)).append hw

theorem endsToken_tail (d : Dialect) (b : Bool) (rest : Str) :
    endsToken d (((if b then b!" CASCADE" else []) ++ b!";\n") ++ rest) := by
  cases b
  · exact endsToken_punct d _ _ (by simp)
  · exact endsToken_space d _

theorem reads_drop (d : Dialect) (ws : List Str) (h : ∀ w ∈ ws, w ≠ [] ∧ w.all wordChar)
    (cur s n : Str) (b : Bool) :
    Reads d (words ws ++ (qualified d cur s n ++ ((if b then b!" CASCADE" else []) ++ b!";\n")))
      ((ws.map Tok.word ++ (nameToks d cur s n ++ tailToks b)) ++ [.punct ';']) := by
  have h2 := (reads_words d ws h).append
    ((reads_qualified d cur s n).append (reads_tail d b) (endsToken_tail d b))
  simpa [List.append_assoc] using h2

theorem readName_nameToks (d : Dialect) (cur s n : Str) (hs : PlainName d s) (hn : PlainName d n)
    (rest : List Tok) (hr : rest.head? ≠ some (.punct '.')) :
    readName d (keywords d) (nameToks d cur s n ++ rest) = some (written cur s, n, rest) := by
  have e1 := nameOf_identTok d s hs
  have e2 := nameOf_identTok d n hn
  unfold nameToks written
  by_cases h : s = [] ∨ s = cur
  · have h' : ¬ (s ≠ [] ∧ s ≠ cur) := by rintro ⟨h1, h2⟩; rcases h with h | h <;> contradiction
    simp only [h', if_false, h, if_true, List.nil_append]
    cases rest with
    | nil => simp [readName, e2]
    | cons t r =>
      simp at hr
      show readName d (keywords d) (identTok d n :: t :: r) = _
      unfold readName
      split
      · rename_i heq; simp at heq; exact absurd heq.2.1 hr
      · rename_i heq; simp at heq; simp [← heq.1, e2, ← heq.2]
      · rename_i heq; simp at heq
  · have h' : s ≠ [] ∧ s ≠ cur := by simpa using h
    simp [h', readName, e1, e2]

theorem readCascade_tail (b : Bool) : readCascade (tailToks b) = some b := by
  cases b <;> decide

theorem tail_head (b : Bool) : (tailToks b).head? ≠ some (.punct '.') := by
  cases b <;> decide

theorem readTail_eq (d : Dialect) (cur s n : Str) (hs : PlainName d s) (hn : PlainName d n)
    (k : Kind) (b : Bool) :
    readTail d (keywords d) k (nameToks d cur s n ++ tailToks b) =
      some (.drop k (written cur s) n b) := by
  simp [readTail, readName_nameToks d cur s n hs hn _ (tail_head b), readCascade_tail]

theorem heads_find (k : Kind) (ws : List Str) (h : (k, ws) ∈ heads) (r : List Tok) :
    heads.findSome? (fun h => (kws h.2 (ws.map Tok.word ++ r)).map fun r => (h.1, r)) =
      some (k, r) := by
  simp only [heads, List.mem_cons, Prod.mk.injEq, List.not_mem_nil, or_false] at h
  rcases h with ⟨rfl, rfl⟩ | ⟨rfl, rfl⟩ | ⟨rfl, rfl⟩ | ⟨rfl, rfl⟩ | ⟨rfl, rfl⟩ | ⟨rfl, rfl⟩ |
    ⟨rfl, rfl⟩ | ⟨rfl, rfl⟩ <;> rfl

/-- A text that is one statement. -/
def IsStmt (d : Dialect) (s : Str) (st : Stmt) : Prop :=
  s ≠ [] ∧ ∃ ts, Reads d s (ts ++ [.punct ';']) ∧ Tok.punct ';' ∉ ts ∧
    readStmt d (keywords d) ts = some st

theorem nameToks_no_semi (d : Dialect) (cur s n : Str) : Tok.punct ';' ∉ nameToks d cur s n := by
  have h1 := identTok_not_punct d s ';'
  have h2 := identTok_not_punct d n ';'
  unfold nameToks
  split <;> simp [Ne.symm h1, Ne.symm h2]

theorem tailToks_no_semi (b : Bool) : Tok.punct ';' ∉ tailToks b := by
  cases b <;> decide

theorem words_no_semi (ws : List Str) : Tok.punct ';' ∉ ws.map Tok.word := by simp

theorem isStmt_drop (d : Dialect) (k : Kind) (ws : List Str) (h : (k, ws) ∈ heads) (cur s n : Str)
    (hs : PlainName d s) (hn : PlainName d n) (b : Bool) :
    IsStmt d (words ws ++ (qualified d cur s n ++ ((if b then b!" CASCADE" else []) ++ b!";\n")))
      (.drop k (written cur s) n b) := by
  have hw : ∀ w ∈ ws, w ≠ [] ∧ w.all wordChar := by
    have : ∀ h ∈ heads, ∀ w ∈ h.2, w ≠ [] ∧ w.all wordChar := by decide
    exact this _ h
  refine ⟨by simp, _, reads_drop d ws hw cur s n b, ?_, ?_⟩
  · simp only [List.mem_append, not_or]
    exact ⟨words_no_semi ws, nameToks_no_semi d cur s n, tailToks_no_semi b⟩
  · unfold readStmt
    rw [heads_find k ws h]
    exact readTail_eq d cur s n hs hn k b

theorem plainName_nil (d : Dialect) : PlainName d [] := by
  refine ⟨?_, fun _ => by decide⟩
  rintro ⟨a, c, b, h⟩
  cases a <;> simp at h

theorem isStmt_fkey (d : Dialect) (cur : Str) (c : Constraint) (hs : PlainName d c.tableSchema)
    (ht : PlainName d c.tableName) (hn : PlainName d c.constraintName) :
    IsStmt d (dropFkey d cur c)
      (.dropConstraint (written cur c.tableSchema) c.tableName c.constraintName (d == .postgres)) := by
  have e : dropFkey d cur c = words [b!"ALTER", b!"TABLE"] ++ (qualified d cur c.tableSchema c.tableName ++
      ([' '] ++ (words [b!"DROP", b!"CONSTRAINT"] ++ (quoteIdentifier d c.constraintName ++
        ((if (d == .postgres) then b!" CASCADE" else []) ++ b!";\n"))))) := by
    simp [dropFkey, words, List.append_assoc]
  rw [e]
  refine ⟨by simp [words], [b!"ALTER", b!"TABLE"].map Tok.word ++ (nameToks d cur c.tableSchema c.tableName ++
      ([] ++ ([b!"DROP", b!"CONSTRAINT"].map Tok.word ++ ([identTok d c.constraintName] ++
        tailToks (d == .postgres))))), ?_, ?_, ?_⟩
  · have h3 := (reads_ident d c.constraintName).append (reads_tail d (d == .postgres))
      (endsToken_tail d _)
    have h4 := (reads_words d [b!"DROP", b!"CONSTRAINT"] (by decide)).append h3
    have h5 := (reads_space d ' ' (by decide)).append h4
    have h6 := (reads_qualified d cur c.tableSchema c.tableName).append h5
      (fun rest => endsToken_space d _)
    have h7 := (reads_words d [b!"ALTER", b!"TABLE"] (by decide)).append h6
    simpa [List.append_assoc] using h7
  · have h1 := identTok_not_punct d c.constraintName ';'
    simp only [List.mem_append, not_or]
    refine ⟨words_no_semi _, nameToks_no_semi d cur _ _, by simp, words_no_semi _, by simp [Ne.symm h1],
      tailToks_no_semi _⟩
  · unfold readStmt
    have hf : ∀ r, heads.findSome? (fun h => (kws h.2 ([b!"ALTER", b!"TABLE"].map Tok.word ++ r)).map
        fun r => (h.1, r)) = none := fun _ => rfl
    rw [hf]
    simp only
    rw [if_neg (by simp)]
    unfold readAlter
    have k1 : ∀ r, kws [b!"ALTER", b!"TABLE"] ([b!"ALTER", b!"TABLE"].map Tok.word ++ r) = some r :=
      fun _ => rfl
    have k2 : ∀ r, kws [b!"DROP", b!"CONSTRAINT"] ([b!"DROP", b!"CONSTRAINT"].map Tok.word ++ r) =
      some r := fun _ => rfl
    rw [k1]
    simp only [Option.bind_some]
    rw [readName_nameToks d cur _ _ hs ht _ (by simp)]
    simp only [Option.bind_some, List.nil_append]
    rw [k2]
    simp only [Option.bind_some]
    have k3 := readName_nameToks d cur [] c.constraintName (plainName_nil d) hn
      (tailToks (d == .postgres)) (tail_head _)
    simp only [nameToks, ne_eq, not_true_eq_false, false_and, if_false, List.nil_append] at k3
    rw [k3]
    simp [readCascade_tail]

theorem isStmt_pragma (d : Dialect) (hd : d = .sqlite) : IsStmt d pragma .deferForeignKeys := by
  refine ⟨by decide, [.word b!"PRAGMA", .word b!"defer_foreign_keys", .punct '=', .word b!"1"],
    ?_, by decide, ?_⟩
  · have h1 : Reads d b!";\n" [.punct ';'] :=
      (reads_punct d ';' (by simp)).append (reads_space d '\n' (by decide))
    have h2 := (reads_word d b!"1" (by decide) (by decide)).append h1
      (fun rest => endsToken_punct d _ _ (by simp))
    have h3 := (reads_words d [b!"PRAGMA", b!"defer_foreign_keys"] (by decide)).append
      ((reads_punct d '=' (by simp)).append ((reads_space d ' ' (by decide)).append h2))
    exact h3
  · subst hd; rfl

theorem buffer_fold (b : Str) (ss : List Str) (hb : b ≠ []) :
    ss.foldl addStmt b = b ++ ss.flatMap fun s => b!"\n" ++ s := by
  induction ss generalizing b with
  | nil => simp
  | cons s ss ih =>
    have : 0 < b.length := List.length_pos_iff.2 hb
    simp only [List.foldl_cons, List.flatMap_cons]
    rw [ih (addStmt b s) (by simp [addStmt, this])]
    simp [addStmt, this, List.append_assoc]

/-- The buffer is read as the tokens of its statements. -/
theorem lex_buffer (d : Dialect) (ps : List (Str × Stmt)) (h : ∀ p ∈ ps, IsStmt d p.1 p.2) :
    readScript d (keywords d) (buffer (ps.map (·.1))) = some (ps.map (·.2)) := by
  have hc : ∃ tss : List (List Tok), Reads d (buffer (ps.map (·.1)))
      (tss.flatMap fun ts => ts ++ [.punct ';']) ∧ (∀ ts ∈ tss, Tok.punct ';' ∉ ts) ∧
      tss.mapM (readStmt d (keywords d)) = some (ps.map (·.2)) := by
    have key : ∀ ps : List (Str × Stmt), (∀ p ∈ ps, IsStmt d p.1 p.2) →
        ∃ tss : List (List Tok), Reads d (ps.flatMap fun p => b!"\n" ++ p.1)
          (tss.flatMap fun ts => ts ++ [.punct ';']) ∧ (∀ ts ∈ tss, Tok.punct ';' ∉ ts) ∧
          tss.mapM (readStmt d (keywords d)) = some (ps.map (·.2)) := by
      intro ps h
      induction ps with
      | nil => exact ⟨[], Reads.nil d, by simp, by simp⟩
      | cons p ps ih =>
        obtain ⟨tss, h1, h2, h3⟩ := ih fun q hq => h q (by simp [hq])
        obtain ⟨_, ts, k1, k2, k3⟩ := h p (by simp)
        refine ⟨ts :: tss, ?_, ?_, ?_⟩
        · simp only [List.flatMap_cons]
          exact ((reads_space d '\n' (by decide)).append k1).append h1
        · simpa using ⟨k2, h2⟩
        · simp [List.mapM_cons, k3, h3]
    cases ps with
    | nil => exact ⟨[], Reads.nil d, by simp, by simp⟩
    | cons p ps =>
      obtain ⟨tss, h1, h2, h3⟩ := key ps fun q hq => h q (by simp [hq])
      obtain ⟨k0, ts, k1, k2, k3⟩ := h p (by simp)
      refine ⟨ts :: tss, ?_, ?_, ?_⟩
      · have e : buffer ((p :: ps).map (·.1)) = p.1 ++ ps.flatMap fun p => b!"\n" ++ p.1 := by
          simp only [buffer, List.map_cons, List.foldl_cons]
          have e1 : addStmt [] p.1 = p.1 := by simp [addStmt]
          rw [e1, buffer_fold p.1 _ k0, List.flatMap_map]
        rw [e]
        simp only [List.flatMap_cons]
        exact k1.append h1
      · simpa using ⟨k2, h2⟩
      · simp [List.mapM_cons, k3, h3]
  obtain ⟨tss, h1, h2, h3⟩ := hc
  unfold readScript
  rw [lex_of_reads h1]
  have hs : ∀ tss : List (List Tok), (∀ ts ∈ tss, Tok.punct ';' ∉ ts) →
      statements (tss.flatMap fun ts => ts ++ [.punct ';']) = tss := by
    intro tss h
    induction tss with
    | nil => rfl
    | cons ts tss ih =>
      simp only [List.flatMap_cons, List.append_assoc, List.cons_append, List.nil_append]
      rw [statements_append _ _ (h ts (by simp)), ih fun x hx => h x (by simp [hx])]
  rw [Option.bind_some, hs tss h2, h3]

theorem stmts_ok (d : Dialect) (cur : Str) (c : Content) :
    stmts d (c.answers cur) = .ok (
      c.views.map (dropView d cur) ++
      (if d = .sqlite then [] else c.fkeys.map (dropFkey d cur)) ++
      (if d = .sqlite ∧ c.tables ≠ [] then [pragma] else []) ++
      c.tables.map (dropTable d cur) ++
      (if d = .sqlite then [] else c.routines.map (dropRoutine d cur)) ++
      (if d = .postgres then c.enums.map (dropEnum d cur) ++ c.domains.map (dropDomain d cur) ++
        (c.extensions.filter (· ≠ b!"plpgsql")).map (dropExtension d) else [])) := by
  cases d <;> rfl

/-- C44 (the text).  The script that wipe runs or prints is read, by the grammar of the database, as
exactly the planned statements: one for each view, foreign key (SQLite: none), table, routine, enum,
domain and extension, in that order. -/
theorem wipe_script_partial (d : Dialect) (cur : Str) (c : Content) (hp : c.Plain d) :
    ∃ ss, stmts d (c.answers cur) = .ok ss ∧
      readScript d (keywords d) (buffer ss) = some (planned d cur c) := by
  refine ⟨_, stmts_ok d cur c, ?_⟩
  let ps : List (Str × Stmt) :=
    (c.views.map fun v => (dropView d cur v, Stmt.drop (if v.isMaterialized then .matview else .view)
      (written cur v.viewSchema) v.viewName (d == .postgres || d == .mysql))) ++
    (if d = .sqlite then [] else c.fkeys.map fun k => (dropFkey d cur k,
      Stmt.dropConstraint (written cur k.tableSchema) k.tableName k.constraintName (d == .postgres))) ++
    (if d = .sqlite ∧ c.tables ≠ [] then [(pragma, Stmt.deferForeignKeys)] else []) ++
    (c.tables.map fun t => (dropTable d cur t, Stmt.drop .table (written cur t.tableSchema) t.tableName
      (d == .postgres || d == .mysql))) ++
    (if d = .sqlite then [] else c.routines.map fun r => (dropRoutine d cur r,
      Stmt.drop (if r.routineType = b!"PROCEDURE" then .procedure else .function)
        (written cur r.routineSchema) r.routineName (d == .postgres))) ++
    (if d = .postgres then
      (c.enums.map fun e => (dropEnum d cur e, Stmt.drop .type (written cur e.enumSchema) e.enumName true)) ++
      (c.domains.map fun e => (dropDomain d cur e,
        Stmt.drop .domain (written cur e.domainSchema) e.domainName true)) ++
      ((c.extensions.filter (· ≠ b!"plpgsql")).map fun e => (dropExtension d e,
        Stmt.drop .extension none e true))
    else [])
  have e1 : ps.map (·.1) = (c.views.map (dropView d cur) ++
      (if d = .sqlite then [] else c.fkeys.map (dropFkey d cur)) ++
      (if d = .sqlite ∧ c.tables ≠ [] then [pragma] else []) ++
      c.tables.map (dropTable d cur) ++
      (if d = .sqlite then [] else c.routines.map (dropRoutine d cur)) ++
      (if d = .postgres then c.enums.map (dropEnum d cur) ++ c.domains.map (dropDomain d cur) ++
        (c.extensions.filter (· ≠ b!"plpgsql")).map (dropExtension d) else [])) := by
    simp only [ps, List.map_append, List.map_map, apply_ite (List.map (fun p : Str × Stmt => p.1)),
      List.map_nil, List.map_cons]
    rfl
  have e2 : ps.map (·.2) = planned d cur c := by
    simp only [ps, planned, List.map_append, List.map_map,
      apply_ite (List.map (fun p : Str × Stmt => p.2)), List.map_nil, List.map_cons]
    rfl
  rw [← e1, ← e2]
  apply lex_buffer
  intro p hpm
  simp only [ps, List.mem_append] at hpm
  rcases hpm with ((((hpm | hpm) | hpm) | hpm) | hpm) | hpm
  · obtain ⟨v, hv, rfl⟩ := List.mem_map.1 hpm
    obtain ⟨h1, h2⟩ := hp.views v hv
    have := isStmt_drop d (if v.isMaterialized then .matview else .view)
      (if v.isMaterialized then [b!"DROP", b!"MATERIALIZED", b!"VIEW", b!"IF", b!"EXISTS"]
        else [b!"DROP", b!"VIEW", b!"IF", b!"EXISTS"]) (by cases v.isMaterialized <;> decide)
      cur v.viewSchema v.viewName h1 h2 (d == .postgres || d == .mysql)
    have e : dropView d cur v = words (if v.isMaterialized then
        [b!"DROP", b!"MATERIALIZED", b!"VIEW", b!"IF", b!"EXISTS"]
        else [b!"DROP", b!"VIEW", b!"IF", b!"EXISTS"]) ++ (qualified d cur v.viewSchema v.viewName ++
        ((if (d == .postgres || d == .mysql) then b!" CASCADE" else []) ++ b!";\n")) := by
      unfold dropView
      cases v.isMaterialized <;> simp [words, List.append_assoc]
    rw [← e] at this
    exact this
  · split at hpm
    · simp at hpm
    · obtain ⟨k, hk, rfl⟩ := List.mem_map.1 hpm
      obtain ⟨h1, h2, h3⟩ := hp.fkeys k hk
      exact isStmt_fkey d cur k h1 h2 h3
  · split at hpm
    · rename_i hd
      simp at hpm; subst hpm
      exact isStmt_pragma d hd.1
    · simp at hpm
  · obtain ⟨t, ht, rfl⟩ := List.mem_map.1 hpm
    obtain ⟨h1, h2⟩ := hp.tables t ht
    have := isStmt_drop d .table [b!"DROP", b!"TABLE", b!"IF", b!"EXISTS"] (by decide)
      cur t.tableSchema t.tableName h1 h2 (d == .postgres || d == .mysql)
    have e : dropTable d cur t = words [b!"DROP", b!"TABLE", b!"IF", b!"EXISTS"] ++
        (qualified d cur t.tableSchema t.tableName ++
        ((if (d == .postgres || d == .mysql) then b!" CASCADE" else []) ++ b!";\n")) := by
      simp [dropTable, words, List.append_assoc]
    rw [← e] at this
    exact this
  · split at hpm
    · simp at hpm
    · obtain ⟨r, hr, rfl⟩ := List.mem_map.1 hpm
      obtain ⟨h1, h2⟩ := hp.routines r hr
      have := isStmt_drop d (if r.routineType = b!"PROCEDURE" then .procedure else .function)
        (if r.routineType = b!"PROCEDURE" then [b!"DROP", b!"PROCEDURE", b!"IF", b!"EXISTS"]
          else [b!"DROP", b!"FUNCTION", b!"IF", b!"EXISTS"]) (by split <;> decide)
        cur r.routineSchema r.routineName h1 h2 (d == .postgres)
      have e : dropRoutine d cur r = words (if r.routineType = b!"PROCEDURE" then
          [b!"DROP", b!"PROCEDURE", b!"IF", b!"EXISTS"]
          else [b!"DROP", b!"FUNCTION", b!"IF", b!"EXISTS"]) ++
          (qualified d cur r.routineSchema r.routineName ++
          ((if (d == .postgres) then b!" CASCADE" else []) ++ b!";\n")) := by
        unfold dropRoutine
        split <;> simp [words, List.append_assoc]
      rw [← e] at this
      exact this
  · split at hpm
    · rename_i hd
      simp only [List.mem_append] at hpm
      rcases hpm with (hpm | hpm) | hpm
      · obtain ⟨r, hr, rfl⟩ := List.mem_map.1 hpm
        obtain ⟨h1, h2⟩ := hp.enums r hr
        have := isStmt_drop d .type [b!"DROP", b!"TYPE", b!"IF", b!"EXISTS"] (by decide)
          cur r.enumSchema r.enumName h1 h2 true
        have e : dropEnum d cur r = words [b!"DROP", b!"TYPE", b!"IF", b!"EXISTS"] ++
            (qualified d cur r.enumSchema r.enumName ++
            ((if true then b!" CASCADE" else []) ++ b!";\n")) := by
          simp [dropEnum, words]
        rw [← e] at this
        exact this
      · obtain ⟨r, hr, rfl⟩ := List.mem_map.1 hpm
        obtain ⟨h1, h2⟩ := hp.domains r hr
        have := isStmt_drop d .domain [b!"DROP", b!"DOMAIN", b!"IF", b!"EXISTS"] (by decide)
          cur r.domainSchema r.domainName h1 h2 true
        have e : dropDomain d cur r = words [b!"DROP", b!"DOMAIN", b!"IF", b!"EXISTS"] ++
            (qualified d cur r.domainSchema r.domainName ++
            ((if true then b!" CASCADE" else []) ++ b!";\n")) := by
          simp [dropDomain, words]
        rw [← e] at this
        exact this
      · obtain ⟨r, hr, rfl⟩ := List.mem_map.1 hpm
        have h2 := hp.extensions r (List.mem_filter.1 hr).1
        have := isStmt_drop d .extension [b!"DROP", b!"EXTENSION", b!"IF", b!"EXISTS"] (by decide)
          cur [] r (plainName_nil d) h2 true
        have e : dropExtension d r = words [b!"DROP", b!"EXTENSION", b!"IF", b!"EXISTS"] ++
            (qualified d cur [] r ++
            ((if true then b!" CASCADE" else []) ++ b!";\n")) := by
          simp [dropExtension, words, qualified]
        rw [← e] at this
        simpa [written] using this
    · simp at hpm

/-! ## Running the script -/

/-- The schema of an object. -/
def eff (cur s : Str) : Str := if s = [] then cur else s

theorem written_getD (cur s : Str) : (written cur s).getD cur = eff cur s := by
  unfold written eff
  by_cases h : s = [] <;> by_cases h2 : s = cur <;> simp_all

/-- The object of a view. -/
def viewObj (cur : Str) (v : View) : Obj :=
  { kind := if v.isMaterialized then .matview else .view
    schema := eff cur v.viewSchema, name := v.viewName }

/-- The object of a foreign key. -/
def fkeyObj (cur : Str) (k : Constraint) : Obj :=
  { kind := .fkey, schema := eff cur k.tableSchema, table := k.tableName, name := k.constraintName }

/-- The object of a table. -/
def tableObj (cur : Str) (t : Table) : Obj :=
  { kind := .table, schema := eff cur t.tableSchema, name := t.tableName }

/-- The object of a routine. -/
def routineObj (cur : Str) (r : Routine) : Obj :=
  { kind := if r.routineType = b!"PROCEDURE" then .procedure else .function
    schema := eff cur r.routineSchema, name := r.routineName, args := r.identityArguments }

/-- The database contains what the introspector reported, and possibly other objects. -/
structure Content.Describes (c : Content) (w : World) (db : Db) : Prop where
  views : ∀ o, db.has o → o.kind = .view ∨ o.kind = .matview →
    ∃ v ∈ c.views, o = viewObj w.currentSchema v
  /-- SQLite is not asked for its foreign keys; they belong to its tables -/
  fkeys : ∀ o, db.has o → o.kind = .fkey →
    if w.dialect = .sqlite then
      ∃ t ∈ c.tables, ownKey (eff w.currentSchema t.tableSchema) t.tableName o
    else ∃ k ∈ c.fkeys, o = fkeyObj w.currentSchema k
  tables : ∀ o, db.has o → o.kind = .table → ∃ t ∈ c.tables, o = tableObj w.currentSchema t
  routines : ∀ o, db.has o → o.kind = .procedure ∨ o.kind = .function →
    ∃ r ∈ c.routines, o = routineObj w.currentSchema r
  enums : ∀ o, db.has o → o.kind = .enum →
    ∃ e ∈ c.enums, o.schema = eff w.currentSchema e.enumSchema ∧ o.name = e.enumName
  domains : ∀ o, db.has o → o.kind = .domain →
    ∃ e ∈ c.domains, o.schema = eff w.currentSchema e.domainSchema ∧ o.name = e.domainName
  extensions : ∀ o, db.has o → o.kind = .extension → o.schema = [] ∧ o.name ∈ c.extensions
  /-- the reported foreign keys exist -/
  fkeys_exist : ∀ k ∈ c.fkeys, db.has (fkeyObj w.currentSchema k)
  /-- SQLite has no routines, and only Postgres has enums, domains and extensions -/
  only_sqlite : w.dialect = .sqlite → ∀ o, db.has o → o.kind ≠ .procedure ∧ o.kind ≠ .function
  only_postgres : w.dialect ≠ .postgres → ∀ o, db.has o →
    o.kind ≠ .enum ∧ o.kind ≠ .domain ∧ o.kind ≠ .extension

/-- The database is one on which the statements make sense. -/
structure Sane (w : World) (db : Db) (c : Content) : Prop where
  /-- foreign keys depend on tables, not on views or other foreign keys -/
  fkey_uses : ∀ f x, f.kind = .fkey → Uses w f x →
    x.kind ≠ .view ∧ x.kind ≠ .matview ∧ x.kind ≠ .fkey
  /-- foreign keys are reported once and their tables are named -/
  fkeys_once : (c.fkeys.map (fkeyObj w.currentSchema)).Nodup
  /-- no two functions and no two procedures with the same name (see `wipe_overloaded_refuted`) -/
  no_overload : ∀ a b, db.has a → db.has b → a.kind = b.kind →
    (a.kind = .function ∨ a.kind = .procedure) → a.schema = b.schema → a.name = b.name → a = b
  no_aggregate : ∀ a, db.has a → a.kind ≠ .aggregate
  not_deferred : db.deferred = false

theorem runAll_append (w : World) (xs ys : List Stmt) (db : Db) :
    runAll w (xs ++ ys) db = (runAll w xs db).bind (runAll w ys) := by
  induction xs generalizing db with
  | nil => simp [runAll]
  | cons x xs ih =>
    simp only [List.cons_append, runAll]
    cases exec w x db <;> simp [ih]

theorem refused_mono (w : World) (db db' : Db) (hd : db'.deferred = db.deferred)
    (hs : ∀ o, db'.has o → db.has o) (k : Kind) (s n : Str) (c : Bool)
    (h : refused w db' k s n c) : refused w db k s n c := by
  rcases h with ⟨hk, h⟩ | ⟨h1, h2, a, x, h3, h4, h5⟩ | ⟨h1, h2, h3, ⟨f, h4, h5⟩, x, h6, h7⟩
  · refine Or.inl ⟨hk, ?_⟩
    rcases h with ⟨a, b, h1, h2, h3, h4⟩ | ⟨a, h1, h2⟩
    · exact Or.inl ⟨a, b, h1, hs a h2, hs b h3, h4⟩
    · exact Or.inr ⟨a, hs a h1, h2⟩
  · exact Or.inr (Or.inl ⟨h1, h2, a, x, hs a h3, hs x h4, h5⟩)
  · exact Or.inr (Or.inr ⟨h1, h2, fun e => hd ▸ h3 e, ⟨f, hs f h4, h5⟩, x, hs x h6, h7⟩)

/-- A list of DROP statements none of which is refused at the start. -/
theorem run_drops (w : World) {α : Type} (xs : List α) (k : α → Kind) (s : α → Option Str)
    (n : α → Str) (c : Bool) (db : Db)
    (h : ∀ x ∈ xs, ¬ refused w db (k x) (w.schema (k x) (s x)) (n x) c) :
    ∃ db', runAll w (xs.map fun x => .drop (k x) (s x) (n x) c) db = some db' ∧
      db'.deferred = db.deferred ∧
      ∀ o, db'.has o ↔ db.has o ∧
        ∀ x ∈ xs, ¬ removed w (k x) (w.schema (k x) (s x)) (n x) c o := by
  induction xs generalizing db with
  | nil => exact ⟨db, rfl, rfl, by simp⟩
  | cons x xs ih =>
    let db1 : Db := { db with has := fun o => db.has o ∧ ¬ removed w (k x) (w.schema (k x) (s x)) (n x) c o }
    have e : exec w (.drop (k x) (s x) (n x) c) db = some db1 := by
      unfold exec
      simp [h x (by simp), db1]
    obtain ⟨db', h1, h2, h3⟩ := ih db1 (fun y hy hr => h y (by simp [hy])
      (refused_mono w db db1 rfl (fun o ho => ho.1) _ _ _ _ hr))
    refine ⟨db', by simp [runAll, e, h1], h2, ?_⟩
    intro o
    rw [h3 o]
    simp [db1, and_assoc]

/-- Dropping the foreign keys. -/
theorem run_fkeys (w : World) (ks : List Constraint) (c : Bool) (db : Db)
    (hn : (ks.map (fkeyObj w.currentSchema)).Nodup)
    (he : ∀ k ∈ ks, db.has (fkeyObj w.currentSchema k))
    (hu : ∀ f x, f.kind = .fkey → Uses w f x → x.kind ≠ .fkey) :
    ∃ db', runAll w (ks.map fun k => .dropConstraint (written w.currentSchema k.tableSchema)
        k.tableName k.constraintName c) db = some db' ∧
      db'.deferred = db.deferred ∧ (∀ o, db'.has o → db.has o) ∧
      (∀ k ∈ ks, ¬ db'.has (fkeyObj w.currentSchema k)) ∧
      (w.dialect ≠ .postgres → ∀ o, o.kind ≠ .fkey → db.has o → db'.has o) := by
  induction ks generalizing db with
  | nil => exact ⟨db, rfl, rfl, by simp⟩
  | cons k ks ih =>
    simp only [List.map_cons, List.nodup_cons] at hn
    let s := (written w.currentSchema k.tableSchema).getD w.currentSchema
    have es : s = eff w.currentSchema k.tableSchema := written_getD _ _
    let db1 : Db := { db with has := fun o => db.has o ∧
        ¬ (ownKey s k.tableName o ∧ o.name = k.constraintName) ∧
        ¬ (w.dialect = .postgres ∧ c = true ∧
            ∃ x, ownKey s k.tableName x ∧ x.name = k.constraintName ∧ Uses w o x) }
    have hx : ∃ o, db.has o ∧ ownKey s k.tableName o ∧ o.name = k.constraintName :=
      ⟨_, he k (by simp), ⟨rfl, es.symm, rfl⟩, rfl⟩
    have e : exec w (.dropConstraint (written w.currentSchema k.tableSchema) k.tableName
        k.constraintName c) db = some db1 := by
      unfold exec
      exact if_pos hx
    have hsame : ∀ k2 : Constraint, ownKey s k.tableName (fkeyObj w.currentSchema k2) →
        (fkeyObj w.currentSchema k2).name = k.constraintName →
        fkeyObj w.currentSchema k2 = fkeyObj w.currentSchema k := by
      intro k2 ⟨_, h2, h3⟩ h4
      rw [es] at h2
      simp only [fkeyObj] at *
      simp [h2, h3, h4]
    obtain ⟨db', h1, h2, h3, h4, h5⟩ := ih db1 hn.2 (by
      intro k2 hk2
      refine ⟨he k2 (by simp [hk2]), ?_, ?_⟩
      · rintro ⟨h1, h2⟩
        apply hn.1
        rw [← hsame k2 h1 h2]
        exact List.mem_map.2 ⟨k2, hk2, rfl⟩
      · rintro ⟨_, _, x, hx1, _, hx3⟩
        exact hu _ x rfl hx3 hx1.1)
    refine ⟨db', by simp [runAll, e, h1], h2, fun o ho => (h3 o ho).1, ?_, ?_⟩
    · intro k2 hk2
      simp only [List.mem_cons] at hk2
      rcases hk2 with rfl | hk2
      · intro hh
        exact (h3 _ hh).2.1 ⟨⟨rfl, es.symm, rfl⟩, rfl⟩
      · exact h4 k2 hk2
    · intro hd o ho hb
      refine h5 hd o ho ⟨hb, ?_, ?_⟩
      · rintro ⟨⟨h, _⟩, _⟩; exact ho h
      · rintro ⟨h, _⟩; exact hd h

theorem view_kind (b : Bool) : (if b then Kind.matview else Kind.view).obj =
    (if b then ObjKind.matview else ObjKind.view) := by cases b <;> rfl

theorem routine_kind (p : Prop) [Decidable p] : (if p then Kind.procedure else Kind.function).obj =
    (if p then ObjKind.procedure else ObjKind.function) := by split <;> rfl

theorem kind_cases (k : ObjKind) (p : Prop) (h1 : k ≠ .view) (h2 : k ≠ .matview) (h3 : k ≠ .fkey)
    (h4 : k ≠ .table) (h5 : k ≠ .procedure) (h6 : k ≠ .function) (h7 : k ≠ .aggregate)
    (h8 : k ≠ .enum) (h9 : k ≠ .domain) (h10 : k = .extension → p) :
    k = .other ∨ (k = .extension ∧ p) := by
  cases k <;> first | contradiction | exact Or.inl rfl | exact Or.inr ⟨rfl, h10 rfl⟩

theorem schema_written (w : World) (k : Kind) (s : Str) (h : k ≠ .extension) :
    w.schema k (written w.currentSchema s) = eff w.currentSchema s := by
  simp [World.schema, h, written_getD]

/-- C44.  Running the statements of wipe succeeds, also at commit, and afterwards none of the
reported objects exists: no view, foreign key, table, routine, enum or domain is left and no
extension but `plpgsql`.  Outside Postgres nothing else is dropped. -/
theorem wipe_empties_partial (w : World) (db : Db) (c : Content) (hd : c.Describes w db)
    (hs : Sane w db c) :
    ∃ db', runAll w (planned w.dialect w.currentSchema c) db = some db' ∧ commitOk w db' ∧
      (∀ o, db'.has o → db.has o ∧
        (o.kind = .other ∨ (o.kind = .extension ∧ o.name = b!"plpgsql"))) ∧
      (w.dialect ≠ .postgres → ∀ o, o.kind = .other → db.has o → db'.has o) := by
  -- views
  obtain ⟨db1, r1, f1, h1⟩ := run_drops w c.views
    (fun v => if v.isMaterialized then .matview else .view)
    (fun v => written w.currentSchema v.viewSchema) (fun v => v.viewName)
    (w.dialect == .postgres || w.dialect == .mysql) db (by
      intro v _
      rintro (⟨hk, _⟩ | ⟨hk, hc, _⟩ | ⟨hk, _⟩)
      · split at hk <;> simp at hk
      · simp [hk] at hc
      · split at hk <;> simp at hk)
  have s1 : ∀ o, db1.has o → db.has o := fun o ho => ((h1 o).1 ho).1
  have v1 : ∀ o, db1.has o → o.kind ≠ .view ∧ o.kind ≠ .matview := by
    intro o ho
    refine Decidable.by_contra fun hc => ?_
    have hk : o.kind = .view ∨ o.kind = .matview := by
      by_cases h : o.kind = .view
      · exact Or.inl h
      · by_cases h2 : o.kind = .matview
        · exact Or.inr h2
        · exact absurd ⟨h, h2⟩ hc
    obtain ⟨v, hv, rfl⟩ := hd.views o (s1 o ho) hk
    apply ((h1 _).1 ho).2 v hv
    refine Or.inl ⟨?_, ?_, rfl⟩
    · rw [view_kind]; rfl
    · rw [schema_written _ _ _ (by split <;> simp)]; rfl
  have k1 : ∀ k ∈ c.fkeys, db1.has (fkeyObj w.currentSchema k) := by
    intro k hk
    refine (h1 _).2 ⟨hd.fkeys_exist k hk, ?_⟩
    intro v _
    rintro (⟨hk, _⟩ | ⟨hk, _⟩ | ⟨_, _, x, hx, _, _, hu⟩)
    · rw [view_kind] at hk; simp only [fkeyObj] at hk; split at hk <;> simp at hk
    · split at hk <;> simp at hk
    · have := hs.fkey_uses _ x rfl hu
      rw [view_kind] at hx
      split at hx <;> simp [hx] at this
  have o1 : ∀ o, w.dialect ≠ .postgres → o.kind = .other → db.has o → db1.has o := by
    intro o hp ho hb
    refine (h1 _).2 ⟨hb, ?_⟩
    intro v _
    rintro (⟨hk, _⟩ | ⟨hk, _⟩ | ⟨hk, _⟩)
    · rw [view_kind, ho] at hk; split at hk <;> simp at hk
    · split at hk <;> simp at hk
    · exact hp hk
  -- foreign keys
  obtain ⟨db2, r2, f2, s2, n2, o2⟩ : ∃ db2, runAll w (if w.dialect = .sqlite then [] else
        c.fkeys.map fun k => .dropConstraint (written w.currentSchema k.tableSchema)
        k.tableName k.constraintName (w.dialect == .postgres)) db1 = some db2 ∧
      db2.deferred = db1.deferred ∧ (∀ o, db2.has o → db1.has o) ∧
      (w.dialect ≠ .sqlite → ∀ o, db2.has o → o.kind ≠ .fkey) ∧
      (w.dialect ≠ .postgres → ∀ o, o.kind ≠ .fkey → db1.has o → db2.has o) := by
    by_cases hq : w.dialect = .sqlite
    · exact ⟨db1, by simp [hq, runAll], rfl, fun _ h => h, fun h => absurd hq h, fun _ _ _ h => h⟩
    · obtain ⟨db2, a1, a2, a3, a4, a5⟩ := run_fkeys w c.fkeys (w.dialect == .postgres) db1
        hs.fkeys_once k1 (fun f x hf hu => (hs.fkey_uses f x hf hu).2.2)
      refine ⟨db2, by simpa [hq] using a1, a2, a3, ?_, a5⟩
      intro _ o ho hk
      have hf := hd.fkeys o (s1 o (a3 o ho)) hk
      rw [if_neg hq] at hf
      obtain ⟨k, hk1, rfl⟩ := hf
      exact a4 k hk1 ho
  -- deferring foreign keys
  obtain ⟨db3, r3, s3, f3⟩ : ∃ db3, runAll w (if w.dialect = .sqlite ∧ c.tables ≠ [] then
        [.deferForeignKeys] else []) db2 = some db3 ∧ db3.has = db2.has ∧
      (w.dialect = .sqlite ∧ c.tables ≠ [] → db3.deferred = true) := by
    by_cases hq : w.dialect = .sqlite ∧ c.tables ≠ []
    · exact ⟨{ db2 with deferred := true }, by simp [hq, runAll, exec], rfl, fun _ => rfl⟩
    · exact ⟨db2, by simp only [if_neg hq, runAll], rfl, fun h => absurd h hq⟩
  -- tables
  obtain ⟨db4, r4, f4, h4⟩ := run_drops w c.tables (fun _ => .table)
    (fun t => written w.currentSchema t.tableSchema) (fun t => t.tableName)
    (w.dialect == .postgres || w.dialect == .mysql) db3 (by
      intro t ht
      rintro (⟨hk, _⟩ | ⟨hk, hc, _⟩ | ⟨_, hp, hf, ⟨f, hf1, hf2, _⟩, _⟩)
      · simp at hk
      · simp [hk] at hc
      · by_cases hq : w.dialect = .sqlite
        · have h1 := hf hq
          rw [f3 ⟨hq, fun e => by simp [e] at ht⟩] at h1
          simp at h1
        · rw [s3] at hf1
          exact n2 hq f hf1 hf2)
  have s4 : ∀ o, db4.has o → db2.has o := fun o ho => s3 ▸ ((h4 o).1 ho).1
  have t4 : ∀ o, db4.has o → o.kind ≠ .table := by
    intro o ho hk
    obtain ⟨t, ht, rfl⟩ := hd.tables o (s1 o (s2 o (s4 o ho))) hk
    apply ((h4 _).1 ho).2 t ht
    refine Or.inl ⟨rfl, ?_, rfl⟩
    rw [schema_written _ _ _ (by simp)]; rfl
  have k4 : ∀ o, db4.has o → o.kind ≠ .fkey := by
    intro o ho hk
    by_cases hq : w.dialect = .sqlite
    · have hb := s1 o (s2 o (s4 o ho))
      have hf := hd.fkeys o hb hk
      rw [if_pos hq] at hf
      obtain ⟨t, ht, hown⟩ := hf
      apply ((h4 _).1 ho).2 t ht
      refine Or.inr (Or.inl ⟨rfl, ?_⟩)
      rw [schema_written _ _ _ (by simp)]; exact hown
    · exact n2 hq o (s4 o ho) hk
  have o4 : ∀ o, w.dialect ≠ .postgres → o.kind = .other → db2.has o → db4.has o := by
    intro o hp ho hb
    refine (h4 _).2 ⟨s3 ▸ hb, ?_⟩
    intro t _
    rintro (⟨hk, _⟩ | ⟨_, hk, _⟩ | ⟨hk, _⟩)
    · simp [Kind.obj, ho] at hk
    · simp [ho] at hk
    · exact hp hk
  -- routines
  obtain ⟨db5, r5, f5, s5, n5, o5⟩ : ∃ db5, runAll w (if w.dialect = .sqlite then [] else
        c.routines.map fun r => .drop (if r.routineType = b!"PROCEDURE" then .procedure else .function)
        (written w.currentSchema r.routineSchema) r.routineName (w.dialect == .postgres)) db4 = some db5 ∧
      db5.deferred = db4.deferred ∧ (∀ o, db5.has o → db4.has o) ∧
      (∀ o, db5.has o → o.kind ≠ .procedure ∧ o.kind ≠ .function) ∧
      (∀ o, w.dialect ≠ .postgres → o.kind = .other → db4.has o → db5.has o) := by
    by_cases hq : w.dialect = .sqlite
    · refine ⟨db4, by simp [hq, runAll], rfl, fun _ h => h, ?_, fun _ _ _ h => h⟩
      intro o ho
      exact hd.only_sqlite hq o (s1 o (s2 o (s4 o ho)))
    · obtain ⟨db5, a1, a2, a3⟩ := run_drops w c.routines
        (fun r => if r.routineType = b!"PROCEDURE" then .procedure else .function)
        (fun r => written w.currentSchema r.routineSchema) (fun r => r.routineName)
        (w.dialect == .postgres) db4 (by
          intro r _
          rintro (⟨hk, h⟩ | ⟨hk, hc, _⟩ | ⟨hk, _⟩)
          · rcases h with ⟨a, b, hab, ha, hb, ka, kb, sa, sb, na, nb⟩ | ⟨a, ha, hk, _⟩
            · apply hab
              refine hs.no_overload a b (s1 _ (s2 _ (s4 _ ha))) (s1 _ (s2 _ (s4 _ hb)))
                (ka.trans kb.symm) ?_ (sa.trans sb.symm) (na.trans nb.symm)
              rw [routine_kind] at ka
              split at ka <;> simp [ka]
            · exact hs.no_aggregate a (s1 _ (s2 _ (s4 _ ha))) hk
          · simp [hk] at hc
          · split at hk <;> simp at hk)
      refine ⟨db5, by simpa [hq] using a1, a2, fun o ho => ((a3 o).1 ho).1, ?_, ?_⟩
      · intro o ho
        refine Decidable.by_contra fun hc => ?_
        have hk : o.kind = .procedure ∨ o.kind = .function := by
          by_cases h : o.kind = .procedure
          · exact Or.inl h
          · by_cases h2 : o.kind = .function
            · exact Or.inr h2
            · exact absurd ⟨h, h2⟩ hc
        obtain ⟨r, hr, rfl⟩ := hd.routines o (s1 _ (s2 _ (s4 _ ((a3 o).1 ho).1))) hk
        apply ((a3 _).1 ho).2 r hr
        refine Or.inl ⟨?_, ?_, rfl⟩
        · rw [routine_kind]; rfl
        · rw [schema_written _ _ _ (by split <;> simp)]; rfl
      · intro o hp ho hb
        refine (a3 _).2 ⟨hb, ?_⟩
        intro r _
        rintro (⟨hk, _⟩ | ⟨hk, _⟩ | ⟨hk, _⟩)
        · rw [routine_kind] at hk; split at hk <;> simp [ho] at hk
        · split at hk <;> simp at hk
        · exact hp hk
  -- types and extensions
  obtain ⟨db6, r6, s6, n6, o6⟩ : ∃ db6, runAll w (if w.dialect = .postgres then
      (c.enums.map fun e => .drop .type (written w.currentSchema e.enumSchema) e.enumName true) ++
      (c.domains.map fun e => .drop .domain (written w.currentSchema e.domainSchema) e.domainName true) ++
      ((c.extensions.filter (· ≠ b!"plpgsql")).map fun e => .drop .extension none e true)
      else []) db5 = some db6 ∧ (∀ o, db6.has o → db5.has o) ∧
      (∀ o, db6.has o → o.kind ≠ .enum ∧ o.kind ≠ .domain ∧
        (o.kind = .extension → o.name = b!"plpgsql")) ∧
      (w.dialect ≠ .postgres → db6 = db5) := by
    have sall : ∀ o, db5.has o → db.has o := fun o ho => s1 _ (s2 _ (s4 _ (s5 _ ho)))
    by_cases hq : w.dialect = .postgres
    · obtain ⟨e1, a1, _, a3⟩ := run_drops w c.enums (fun _ => .type)
        (fun e => written w.currentSchema e.enumSchema) (fun e => e.enumName) true db5 (by
          intro r _; rintro (⟨hk, h⟩ | ⟨hk, hc, _⟩ | ⟨hk, _⟩) <;> simp_all)
      obtain ⟨e2, b1, _, b3⟩ := run_drops w c.domains (fun _ => .domain)
        (fun e => written w.currentSchema e.domainSchema) (fun e => e.domainName) true e1 (by
          intro r _; rintro (⟨hk, h⟩ | ⟨hk, hc, _⟩ | ⟨hk, _⟩) <;> simp_all)
      obtain ⟨e3, c1, _, c3⟩ := run_drops w (c.extensions.filter (· ≠ b!"plpgsql"))
        (fun _ => .extension) (fun _ => none) (fun e => e) true e2 (by
          intro r _; rintro (⟨hk, h⟩ | ⟨hk, hc, _⟩ | ⟨hk, _⟩) <;> simp_all)
      have q3 : ∀ o, e3.has o → e2.has o := fun o ho => ((c3 o).1 ho).1
      have q2 : ∀ o, e2.has o → e1.has o := fun o ho => ((b3 o).1 ho).1
      have q1 : ∀ o, e1.has o → db5.has o := fun o ho => ((a3 o).1 ho).1
      refine ⟨e3, ?_, fun o ho => q1 o (q2 o (q3 o ho)), ?_, fun h => absurd hq h⟩
      · rw [if_pos hq, runAll_append, runAll_append, a1, Option.bind_some, b1, Option.bind_some]
        exact c1
      · intro o ho
        have hb := sall o (q1 o (q2 o (q3 o ho)))
        refine ⟨?_, ?_, ?_⟩
        · intro hk
          obtain ⟨e, he, x1, x2⟩ := hd.enums o hb hk
          apply ((a3 _).1 (q2 o (q3 o ho))).2 e he
          refine Or.inl ⟨hk, ?_, x2⟩
          rw [schema_written _ _ _ (by simp)]; exact x1
        · intro hk
          obtain ⟨e, he, x1, x2⟩ := hd.domains o hb hk
          apply ((b3 _).1 (q3 o ho)).2 e he
          refine Or.inl ⟨hk, ?_, x2⟩
          rw [schema_written _ _ _ (by simp)]; exact x1
        · intro hk
          obtain ⟨x1, x2⟩ := hd.extensions o hb hk
          refine Decidable.by_contra fun hne => ?_
          apply ((c3 _).1 ho).2 o.name (by simp [x2, hne])
          exact Or.inl ⟨hk, by simp [World.schema, x1], rfl⟩
    · refine ⟨db5, by simp [hq, runAll], fun _ h => h, ?_, fun _ => rfl⟩
      intro o ho
      have := hd.only_postgres hq o (sall o ho)
      exact ⟨this.1, this.2.1, fun h => absurd h this.2.2⟩
  refine ⟨db6, ?_, ?_, ?_, ?_⟩
  · unfold planned
    rw [runAll_append, runAll_append, runAll_append, runAll_append, runAll_append, r1,
      Option.bind_some, r2, Option.bind_some, r3, Option.bind_some, r4, Option.bind_some, r5,
      Option.bind_some, r6]
  · intro _ _ f s t hf hk _
    exact absurd hk (k4 f (s5 f (s6 f hf)))
  · intro o ho
    have b5 := s6 o ho
    have b4 := s5 o b5
    have b2 := s4 o b4
    have b1 := s2 o b2
    refine ⟨s1 o b1, ?_⟩
    have a1 := v1 o b1
    have a2 := t4 o b4
    have a3 := k4 o b4
    have a4 := n5 o b5
    have a5 := n6 o ho
    have a6 := hs.no_aggregate o (s1 o b1)
    exact kind_cases o.kind _ a1.1 a1.2 a3 a2 a4.1 a4.2 a6 a5.1 a5.2.1 a5.2.2
  · intro hp o ho hb
    rw [o6 hp]
    exact o5 o hp ho (o4 o hp ho (o2 hp o (by simp [ho]) (o1 o hp ho hb)))

/-- C44 (whole command).  If the introspector reports what the database contains and all names are
read back as themselves, the command runs one script (in one transaction, except on MySQL), the
database reads it as statements that all succeed, and afterwards the reported objects are gone. -/
theorem wipe_run_partial (w : World) (db : Db) (c : Content) (hd : c.Describes w db)
    (hs : Sane w db c) (hp : c.Plain w.dialect) :
    ∃ text script db',
      run w.dialect false (c.answers w.currentSchema) {} =
        (if text = [] then [] else if w.dialect = .mysql then [.exec text]
          else [.begin, .txExec text, .commit], none) ∧
      readScript w.dialect (keywords w.dialect) text = some script ∧
      runAll w script db = some db' ∧ commitOk w db' ∧
      ∀ o, db'.has o → db.has o ∧
        (o.kind = .other ∨ (o.kind = .extension ∧ o.name = b!"plpgsql")) := by
  obtain ⟨ss, h1, h2⟩ := wipe_script_partial w.dialect w.currentSchema c hp
  obtain ⟨db', h3, h4, h5, _⟩ := wipe_empties_partial w db c hd hs
  refine ⟨buffer ss, _, db', ?_, h2, h3, h4, h5⟩
  unfold run
  rw [h1]
  simp only [finish, Bool.false_eq_true, if_false]
  split
  · rfl
  · split <;> rfl

/-- C44: with -dry-run the database is left alone: the only thing that is done is to print, and what
is printed is the script that would have been run. -/
theorem wipe_dryRun (d : Dialect) (a : Answers) (o : Outcomes) :
    (∃ e, stmts d a = .error e ∧ run d true a o = ([], some e)) ∨
    ∃ text, (run d true a o).1 = [.stdout text] ∧
      ((run d false a {}).1 = [] ∧ text = [] ∨ (run d false a {}).1 = [.exec text] ∨
        (run d false a {}).1 = [.begin, .txExec text, .commit]) := by
  unfold run
  cases h : stmts d a with
  | error e => exact Or.inl ⟨e, rfl, rfl⟩
  | ok ss =>
    refine Or.inr ⟨buffer ss, rfl, ?_⟩
    simp only [finish, Bool.false_eq_true, if_false]
    by_cases he : buffer ss = []
    · exact Or.inl ⟨by simp [he], he⟩
    · by_cases hm : d = .mysql
      · exact Or.inr (Or.inl (by simp [he, hm]))
      · exact Or.inr (Or.inr (by simp [he, hm]))

/-- C44: if the introspector fails nothing is run. -/
theorem wipe_error (d : Dialect) (dry : Bool) (a : Answers) (o : Outcomes) (e : Str)
    (h : stmts d a = .error e) : run d dry a o = ([], some e) := by
  simp [run, h]

example : run .sqlite false { Content.answers {} [] with tables := .error b!"locked" } {} =
    ([], some b!"locked") := by decide +kernel

/-- C44: outside MySQL an error while running the script is followed by a rollback. -/
theorem wipe_rollback (d : Dialect) (hd : d ≠ .mysql) (a : Answers) (o : Outcomes) (text e : Str)
    (h : Act.txExec text ∈ (run d false a o).1) (he : (run d false a o).2 = some e) :
    (run d false a o).1.getLast? = some .rollback := by
  unfold run at *
  cases hs : stmts d a with
  | error e => simp [hs] at h
  | ok ss =>
    simp only [hs, finish, Bool.false_eq_true, if_false, hd] at *
    by_cases h0 : buffer ss = []
    · simp [h0] at h
    · simp only [h0, if_false] at *
      cases hb : o.begin <;> simp only [hb] at *
      · cases ht : o.txExec <;> simp only [ht] at *
        · cases hc : o.commit <;> simp only [hc] at *
          · simp at he
          · rfl
        · rfl
      · simp at h

/-- The outcome of an action. -/
def outcomeOf (o : Outcomes) : Act → Option Str
  | .stdout _ => o.stdout
  | .exec _ => o.exec
  | .begin => o.begin
  | .txExec _ => o.txExec
  | .commit => o.commit
  | .rollback => none

/-- C44: if no error is reported, then no call has failed, and the output of a dry run has been
written. -/
theorem wipe_reports (d : Dialect) (dry : Bool) (a : Answers) (o : Outcomes)
    (h : (run d dry a o).2 = none) : ∀ x ∈ (run d dry a o).1, outcomeOf o x = none := by
  unfold run at *
  cases hs : stmts d a with
  | error e => simp [hs] at h
  | ok ss =>
    simp only [hs, finish] at *
    cases dry with
    | true => simpa [outcomeOf] using h
    | false =>
      simp only [Bool.false_eq_true, if_false] at *
      by_cases h0 : buffer ss = []
      · simp [h0]
      · simp only [h0, if_false] at *
        by_cases hm : d = .mysql
        · simp only [hm, if_true] at *
          simpa [outcomeOf] using h
        · simp only [hm, if_false] at *
          cases hb : o.begin with
          | some e => rw [hb] at h; simp at h
          | none =>
            cases ht : o.txExec with
            | some e => rw [hb, ht] at h; simp at h
            | none =>
              cases hc : o.commit with
              | some e => rw [hb, ht, hc] at h; simp at h
              | none => simp [outcomeOf, hb, ht, hc]

example : (run .mysql false (Content.answers { tables := [{ tableName := b!"t" }] } [])
    { exec := some b!"locked" }).2 = some b!"locked" := by decide +kernel

/-! ### An instance -/

namespace Sample

/-- Two tables that reference each other's schema, a view, a function, an enum and an extension. -/
def content : Content where
  views := [{ viewSchema := b!"public", viewName := b!"active users" }]
  fkeys := [{ tableSchema := b!"shop", tableName := b!"order", constraintName := b!"order_user_fkey" }]
  tables := [{ tableSchema := b!"public", tableName := b!"user" },
    { tableSchema := b!"shop", tableName := b!"order" }]
  routines := [{ routineSchema := b!"public", routineName := b!"now2", routineType := b!"FUNCTION" }]
  enums := [{ enumSchema := b!"public", enumName := b!"mood" }]
  extensions := [b!"plpgsql", b!"uuid-ossp"]

/-- The objects of the sample database. -/
def objs : List Obj :=
  [{ kind := .view, schema := b!"public", name := b!"active users" },
   { kind := .fkey, schema := b!"shop", table := b!"order", name := b!"order_user_fkey" },
   { kind := .table, schema := b!"public", name := b!"user" },
   { kind := .table, schema := b!"shop", name := b!"order" },
   { kind := .function, schema := b!"public", name := b!"now2" },
   { kind := .enum, schema := b!"public", name := b!"mood" },
   { kind := .extension, name := b!"plpgsql" },
   { kind := .extension, name := b!"uuid-ossp" },
   { kind := .other, schema := b!"public", name := b!"some sequence" }]

/-- The sample world: the view and the foreign key use tables. -/
def world : World where
  dialect := .postgres
  currentSchema := b!"public"
  depends a b := (a.kind = .view ∨ a.kind = .fkey) ∧ b.kind = .table
  refs f s t := f.kind = .fkey ∧ s = b!"public" ∧ t = b!"user"

theorem uses_table (a b : Obj) (h : Uses world a b) : b.kind = .table := by
  induction h with
  | one h => exact h.2
  | more _ _ ih => exact ih

theorem describes : content.Describes world { has := (· ∈ objs) } where
  views := by decide
  fkeys := by
    intro o ho hk
    rw [if_neg (by decide)]
    revert o; decide
  tables := by decide
  routines := by decide
  enums := by decide
  domains := by decide
  extensions := by decide
  fkeys_exist := by decide
  only_sqlite := nofun
  only_postgres := fun h => absurd rfl h

theorem sane : Sane world { has := (· ∈ objs) } content where
  fkey_uses f x _ h := by simp [uses_table f x h]
  fkeys_once := by decide
  no_overload := by
    have : ∀ a ∈ objs, ∀ b ∈ objs, a.kind = b.kind →
      (a.kind = .function ∨ a.kind = .procedure) → a.schema = b.schema → a.name = b.name → a = b := by
      decide
    exact fun a b ha hb => this a ha b hb
  no_aggregate := by decide
  not_deferred := rfl

theorem plain : content.Plain .postgres where
  views := by decide
  fkeys := by decide
  tables := by decide
  routines := by decide
  enums := by decide
  domains := by decide
  extensions := by decide

example : ∃ db', runAll world (planned .postgres b!"public" content) { has := (· ∈ objs) } = some db' ∧
    ∀ o, db'.has o → o.kind = .other ∨ (o.kind = .extension ∧ o.name = b!"plpgsql") := by
  obtain ⟨db', h1, _, h2, _⟩ := wipe_empties_partial world _ content describes sane
  exact ⟨db', h1, fun o ho => (h2 o ho).2⟩

example : (run .postgres true (content.answers b!"public") {}).1 = [.stdout
    b!"DROP VIEW IF EXISTS \"active users\" CASCADE;\n\nALTER TABLE shop.\"order\" DROP CONSTRAINT order_user_fkey CASCADE;\n\nDROP TABLE IF EXISTS \"user\" CASCADE;\n\nDROP TABLE IF EXISTS shop.\"order\" CASCADE;\n\nDROP FUNCTION IF EXISTS now2 CASCADE;\n\nDROP TYPE IF EXISTS mood CASCADE;\n\nDROP EXTENSION IF EXISTS \"uuid-ossp\" CASCADE;\n"] := by
  decide +kernel

example : content.Plain .postgres ∧ content.Describes world { has := (· ∈ objs) } ∧
    Sane world { has := (· ∈ objs) } content := ⟨plain, describes, sane⟩

example : Act.txExec b!"DROP TABLE IF EXISTS t;\n" ∈ (run .sqlserver false
      ({ tables := [{ tableName := b!"t" }] : Content}.answers b!"dbo")
      { txExec := some b!"locked" }).1 ∧
    (run .sqlserver false ({ tables := [{ tableName := b!"t" }] : Content}.answers b!"dbo")
      { txExec := some b!"locked" }).2 = some b!"locked" := by decide +kernel

end Sample

/-! ### What does not hold -/

/-- C44 fails for overloaded functions: Postgres refuses `DROP FUNCTION f` if there are two functions
`f`, although the introspector reported both, so nothing is wiped. -/
theorem wipe_overloaded_refuted :
    ¬ ∀ (w : World) (db : Db) (c : Content), c.Describes w db →
      (∀ f x, f.kind = .fkey → Uses w f x → x.kind ≠ .view ∧ x.kind ≠ .matview ∧ x.kind ≠ .fkey) →
      ∃ db', runAll w (planned w.dialect w.currentSchema c) db = some db' := by
  intro h
  let w : World := { dialect := .postgres, currentSchema := b!"public", depends := fun _ _ => False, refs := fun _ _ _ => False }
  let f1 : Obj := { kind := .function, schema := b!"public", name := b!"f", args := b!"integer" }
  let f2 : Obj := { kind := .function, schema := b!"public", name := b!"f", args := b!"text" }
  let db : Db := { has := fun o => o = f1 ∨ o = f2 }
  let c : Content := { routines :=
    [{ routineSchema := b!"public", routineName := b!"f", identityArguments := b!"integer" },
     { routineSchema := b!"public", routineName := b!"f", identityArguments := b!"text" }] }
  have hd : c.Describes w db := {
    views := by rintro o (rfl | rfl) hk <;> simp [f1, f2] at hk
    fkeys := by rintro o (rfl | rfl) hk <;> simp [f1, f2] at hk
    tables := by rintro o (rfl | rfl) hk <;> simp [f1, f2] at hk
    routines := by
      rintro o (rfl | rfl) hk
      · exact ⟨c.routines[0], by simp [c], rfl⟩
      · exact ⟨c.routines[1], by simp [c], rfl⟩
    enums := by rintro o (rfl | rfl) hk <;> simp [f1, f2] at hk
    domains := by rintro o (rfl | rfl) hk <;> simp [f1, f2] at hk
    extensions := by rintro o (rfl | rfl) hk <;> simp [f1, f2] at hk
    fkeys_exist := by simp [c]
    only_sqlite := nofun
    only_postgres := fun h => absurd rfl h }
  obtain ⟨db', h⟩ := h w db c hd (by
    intro f x _ hu
    induction hu with
    | one h => exact h.elim
    | more h _ _ => exact h.elim)
  have e : exec w (.drop .function none b!"f" true) db = none := by
    unfold exec
    apply if_pos
    exact Or.inl ⟨Or.inl rfl, Or.inl ⟨f1, f2, by decide, Or.inl rfl, Or.inr rfl, rfl, rfl, rfl, rfl, rfl, rfl⟩⟩
  have : runAll w (planned w.dialect w.currentSchema c) db = none := by
    show (exec w (.drop .function none b!"f" true) db).bind _ = none
    rw [e]; rfl
  rw [this] at h
  exact absurd h (by simp)

/-- C44 fails for a Postgres table called `NEW`: the script drops the table `new` instead. -/
theorem wipe_pseudo_name_refuted :
    ¬ ∀ (cur : Str) (c : Content), ∃ ss, stmts .postgres (c.answers cur) = .ok ss ∧
      readScript .postgres (keywords .postgres) (buffer ss) = some (planned .postgres cur c) := by
  intro h
  obtain ⟨ss, h1, h2⟩ := h b!"public" { tables := [{ tableName := b!"NEW" }] }
  have e : ss = [b!"DROP TABLE IF EXISTS NEW CASCADE;\n"] := by
    have : stmts .postgres (Content.answers { tables := [{ tableName := b!"NEW" }] } b!"public") =
      .ok [b!"DROP TABLE IF EXISTS NEW CASCADE;\n"] := by
      rw [stmts_ok]; apply congrArg; decide +kernel
    rw [this] at h1
    simpa using h1.symm
  subst e
  exact absurd h2 (by decide +kernel)

end Sqddl.Wipe
