import Verif.Props.HistoryText
import Verif.Props.InsertTextSample

/-!
# C104: the table that is created, examples, and where the statements do not do what was asked
-/

namespace HistorySql
open Go SqlSpec Sqddl
open Sqddl.Migrate hiding Row
open SubsetSpec (Row)
open WipeSpec (kws)
open InsertSpec (rowOf runTexts insertOf actionOf insertRow)
open Sqddl.BatchInsert (sent sent_exec sent_batch namesOk runTexts_one runTexts_append)

/-! ## The table -/

/-- The items of CREATE TABLE are the columns of the history table, and the name of the file is its key. -/
structure Describes (items : List DdlText.Item) (key : Option Str) : Prop where
  columns : (items.filterMap fun x => match x with
    | .col c => some (c.name, c.notNull)
    | .con _ => none) = [(b!"filename", true), (b!"checksum", false), (b!"started_at", false),
      (b!"time_taken_ns", false), (b!"success", false)]
  key : (items.filterMap fun x => match x with
    | .col _ => none
    | .con c => some c) = [⟨key, .primary [b!"filename"], false, false, false⟩]

/-- What follows the name of the table. -/
def bodyText (d : Dialect) : Str := (createText d []).drop (b!"CREATE TABLE " ++ quoteIdentifier d []).length

def bodyToks (d : Dialect) : List Tok := stoks (bodyText d)

theorem createText_eq (d : Dialect) (table : Str) :
    createText d table = b!"CREATE TABLE " ++ (quoteIdentifier d table ++ bodyText d) := by
  unfold bodyText createText
  simp only [List.append_assoc]
  refine congrArg _ (congrArg _ ?_)
  rw [← List.append_assoc b!"CREATE TABLE " (quoteIdentifier d []), List.drop_left]

theorem body_lit (d : Dialect) : IsLit (bodyText d) (bodyToks d) := by cases d <;> decide +kernel

def bodyItems (d : Dialect) : Option (List DdlText.Item) :=
  (DdlText.inBrackets (bodyToks d)).bind fun p =>
    if p.2 = [] then (DdlText.splitTop 0 p.1).mapM (DdlText.readItem d (keywords d)) else none

/-- The name of the constraint that is the key. -/
def keyName (d : Dialect) : Option Str := if d = .mysql then none else some b!"sqddl_filename_pkey"

theorem body_items (d : Dialect) : ∃ items, bodyItems d = some items ∧ Describes items (keyName d) := by
  have h : (bodyItems d).isSome = true := by cases d <;> decide +kernel
  have hc : (bodyItems d).map (fun items => items.filterMap fun x => match x with
      | .col c => some (c.name, c.notNull)
      | .con _ => none) = some [(b!"filename", true), (b!"checksum", false), (b!"started_at", false),
        (b!"time_taken_ns", false), (b!"success", false)] := by cases d <;> decide +kernel
  have hk : (bodyItems d).map (fun items => items.filterMap fun x => match x with
      | .col _ => none
      | .con c => some c) = some [⟨keyName d, .primary [b!"filename"], false, false, false⟩] := by
    cases d <;> decide +kernel
  cases e : bodyItems d with
  | none => rw [e] at h; cases h
  | some items =>
    rw [e] at hc hk
    exact ⟨items, rfl, Option.some.inj hc, Option.some.inj hk⟩

/-- C104.  The table is created with the five columns, and the name of the file is its key. -/
theorem create_table (d : Dialect) (table : Str) (ht : PlainName d table) :
    ∃ items, (lex d (createText d table)).bind (DdlText.readStmt d (keywords d)) =
      some (.createTable (none, table) items) ∧ Describes items (keyName d) := by
  obtain ⟨items, hi, hd⟩ := body_items d
  refine ⟨items, ?_, hd⟩
  have h := (reads_lit d b!"CREATE TABLE " (by decide) (by decide)).append_p
    ((readsP_ident d table).piece (Piece.lit d _ _ (body_lit d)))
  rw [createText_eq, lex_of_readsP h, Option.bind_some,
    show stoks b!"CREATE TABLE " = [.word b!"CREATE", .word b!"TABLE"] by decide]
  have hp : ∃ r, bodyToks d = .punct '(' :: r := ⟨(bodyToks d).tail, by cases d <;> decide +kernel⟩
  have hn := DdlText.readName_qname d (none, table) (by simp) ht (bodyToks d) (by
    obtain ⟨r, e⟩ := hp
    rw [e]
    simp)
  unfold DdlText.readStmt
  simp only [List.cons_append, List.nil_append]
  rw [show ∀ r, kws [b!"CREATE", b!"SCHEMA", b!"IF", b!"NOT", b!"EXISTS"] (.word b!"CREATE" :: .word b!"TABLE" :: r) = none
    from fun _ => rfl]
  dsimp only
  rw [show ∀ r, kws [b!"DROP", b!"SCHEMA", b!"IF", b!"EXISTS"] (.word b!"CREATE" :: .word b!"TABLE" :: r) = none
    from fun _ => rfl]
  dsimp only
  rw [show ∀ r, kws [b!"DROP", b!"TABLE", b!"IF", b!"EXISTS"] (.word b!"CREATE" :: .word b!"TABLE" :: r) = none
    from fun _ => rfl]
  dsimp only
  rw [show ∀ r, kws [b!"CREATE", b!"TABLE"] (.word b!"CREATE" :: .word b!"TABLE" :: r) = some r from
    DdlText.kws_self [b!"CREATE", b!"TABLE"]]
  dsimp only
  unfold DdlText.readCreateTable
  have hn : WipeSpec.readName d (keywords d) (identTok d table :: bodyToks d) = some (none, table, bodyToks d) := hn
  rw [hn, Option.bind_some]
  dsimp only
  unfold bodyItems at hi
  cases e : DdlText.inBrackets (bodyToks d) with
  | none => rw [e] at hi; cases hi
  | some p =>
    obtain ⟨inner, r⟩ := p
    rw [e] at hi
    rw [Option.bind_some] at hi ⊢
    dsimp only at hi ⊢
    by_cases hr : r = []
    · rw [if_pos hr] at hi ⊢
      rw [hi]
      rfl
    · rw [if_neg hr] at hi; cases hi

/-- The names that CREATE TABLE takes in a schema: that of the table, and in Postgres and SQL Server those of
the primary keys. -/
def taken (d : Dialect) : DdlText.Stmt → List Str
  | .createTable n items => n.2 :: items.filterMap fun x => match x with
    | .con c => match c.kind with
      | .primary _ => if d = .postgres ∨ d = .sqlserver then c.name else none
      | _ => none
    | .col _ => none
  | _ => []

/-- The names of a schema after CREATE TABLE; `none` if a name is taken. -/
def create (d : Dialect) (names : List Str) (s : DdlText.Stmt) : Option (List Str) :=
  if (taken d s).all fun n => !names.contains n then some (taken d s ++ names) else none

theorem taken_of (d : Dialect) (table : Str) (items : List DdlText.Item) (h : Describes items (keyName d)) :
    taken d (.createTable (none, table) items) =
      table :: if d = .postgres ∨ d = .sqlserver then [b!"sqddl_filename_pkey"] else [] := by
  have e : (items.filterMap fun x => match x with
      | .con c => match c.kind with
        | .primary _ => if d = .postgres ∨ d = .sqlserver then c.name else none
        | _ => none
      | .col _ => none) = (items.filterMap fun x => match x with
      | .col _ => none
      | .con c => some c).filterMap fun c => match c.kind with
        | .primary _ => if d = .postgres ∨ d = .sqlserver then c.name else none
        | _ => none := by
    clear h
    induction items with
    | nil => rfl
    | cons x items ih =>
      cases x <;> simp only [List.filterMap_cons, ih]
  unfold taken
  dsimp only
  rw [e, h.key]
  cases d <;> rfl

/-- C104.  The rule does not extend to several history tables: in Postgres and SQL Server the second one in
a schema is refused, whatever its name, because the constraint has the same name every time.  In SQLite and
MySQL both are created. -/
theorem second_table_refuted (d : Dialect) (a b : Str) (ha : PlainName d a) (hb : PlainName d b) (hab : a ≠ b) :
    ∃ sa sb na, (lex d (createText d a)).bind (DdlText.readStmt d (keywords d)) = some sa ∧
      (lex d (createText d b)).bind (DdlText.readStmt d (keywords d)) = some sb ∧ create d [] sa = some na ∧
      ((create d na sb).isSome ↔ ¬ (d = .postgres ∨ d = .sqlserver)) := by
  obtain ⟨ia, ea, da⟩ := create_table d a ha
  obtain ⟨ib, eb, db⟩ := create_table d b hb
  refine ⟨_, _, _, ea, eb, by unfold create; rw [if_pos (by simp)], ?_⟩
  unfold create
  rw [taken_of d a ia da, taken_of d b ib db]
  by_cases hd : d = .postgres ∨ d = .sqlserver
  · simp [hd]
  · simp [hd, Ne.symm hab]

/-! ## Names that differ in case -/

theorem flatten_one {α : Type} {bs : List (List α)} {x : α} (h : bs.flatten = [x]) (hn : ∀ b ∈ bs, b ≠ []) : bs = [[x]] := by
  match bs, h, hn with
  | [], h, _ => cases h
  | [] :: _, _, hn => exact absurd rfl (hn [] (by simp))
  | (a :: b) :: bs, h, hn =>
    simp only [List.flatten_cons, List.cons_append, List.cons.injEq, List.append_eq_nil_iff] at h
    obtain ⟨rfl, rfl, h⟩ := h
    match bs, h, hn with
    | [], _, _ => rfl
    | [] :: _, _, hn => exact absurd rfl (hn [] (by simp))
    | (a :: b) :: bs, h, _ => simp at h

/-- C104.  `Exact` is needed.  If MySQL takes the names of two files to be the same, as it does by default with
`a.sql` and `A.sql`, and one of them is in the history, then recording the other only changes the row of the
first.  The query finds that row for both names, but no row has the name of the second file, so a migrate
queues it again, however often it was run. -/
theorem collation_runs_again_refuted (same : Str → Str → Bool) (cmp : Compare) (cv : Conv) (env : Env) (table : Str)
    (ht : SqlSpec.PlainName .mysql table) (f g : Str) (hf : MigrateSpec.PlainName .mysql f)
    (hg : MigrateSpec.PlainName .mysql g) (hne : f ≠ g) (hfg : cmp.eqv f g = true) (hgg : cmp.eqv g g = true)
    (hrep : isRepeatable f = false) (r : Row) (hr : r b!"filename" = some g) (row : Migrate.Row)
    (vs : List (Option Str)) (he : Encodes cv vs (f, row)) (ok : Nat → Bool)
    (hok : ((historyInsertInto .mysql table).exec ok true [vs]).2 = .ok) :
    ∃ r', runTexts same cmp.eqv .mysql (keywords .mysql) (target table)
        ((historyInsertInto .mysql table).sent ((historyInsertInto .mysql table).exec ok true [vs]).1) [r] = some [r'] ∧
      r' b!"filename" = some g ∧
      ∃ ans, ask cmp .mysql (keywords .mysql) (target table) [r'] (selectText .mysql table [f, g]) = some ans ∧
        ∃ m ms, mkMigs (scanRows cv ans) [f, g] = m :: ms ∧ m.filename = f ∧ decision env m = .queue m := by
  obtain ⟨c, s, n, b, rfl, -⟩ := encodes_row he
  have hw := history_writable cv .mysql table ht [(_, (f, row))] (by simpa using he)
  have hfit := hw.fits
  have hnames := namesOk _ hw
  have hupd : (historyInsertInto .mysql table).updates = false := rfl
  have hact : actionOf (historyInsertInto .mysql table) = .set none
      ([b!"checksum", b!"started_at", b!"time_taken_ns", b!"success"].map fun c => (c, .new c)) := rfl
  have hdia : (historyInsertInto .mysql table).dialect = .mysql := rfl
  have hcol : (historyInsertInto .mysql table).columns = columns := rfl
  have hnm : (target table).name = InsertSpec.nameOf (historyInsertInto .mysql table) := rfl
  have hrun : ∃ r', runTexts same cmp.eqv .mysql (keywords .mysql) (target table)
        ((historyInsertInto .mysql table).sent ((historyInsertInto .mysql table).exec ok true
          [[some f, c, s, n, b]]).1) [r] = some [r'] ∧ r' b!"filename" = some g := by
    generalize historyInsertInto .mysql table = bi at *
    obtain ⟨bs, h1, h2, h3⟩ := sent_exec bi hfit ok true _ hok
    rw [flatten_one h1 h2] at h3
    have hst := InsertSpec.insert_stmt bi (.inr (.inr (.inr hdia))) hnames 1 (by decide)
    rw [hdia] at hst
    rw [h3, List.flatMap_singleton, sent_batch, hupd]
    simp only [Bool.false_eq_true, if_false, List.nil_append]
    have hlen : ([[some f, c, s, n, b]] : List (List (Option Str))).length = 1 := rfl
    rw [hlen, runTexts_one hst]
    have hi := InsertSpec.insertOf_run cmp.eqv bi (target table) hnm (by rw [hcol]; decide) [[some f, c, s, n, b]]
      (by rw [hcol]; simp [columns]) (by
        rw [hact]
        show InsertSpec.Action.fits [b!"filename"] _ = true
        decide +kernel) (by rw [hact, hdia]; rfl) [r]
    rw [hdia, hlen] at hi
    have hclash : InsertSpec.clash cmp.eqv (target table).key (rowOf (target table).default columns [some f, c, s, n, b]) r
        = true := by
      have e := (rowOf_columns (target table).default (some f) c s n b).1
      generalize rowOf (target table).default columns [some f, c, s, n, b] = x at e
      simp [InsertSpec.clash, target, InsertSpec.equal, e, hr, hfg]
    show ∃ r', (insertOf bi 1).run cmp.eqv .mysql (target table) _ [r] = some [r'] ∧ _
    rw [hi, hcol, hact]
    refine ⟨BatchSpec.applySets ([b!"checksum", b!"started_at", b!"time_taken_ns", b!"success"].map fun c => (c, .new c))
      (rowOf (target table).default columns [some f, c, s, n, b]) r, ?_, ?_⟩
    · rw [show ([[some f, c, s, n, b]] : List (List (Option Str))).map (rowOf (target table).default columns) =
        [rowOf (target table).default columns [some f, c, s, n, b]] from rfl, List.foldlM_cons]
      have hir : ∀ sets, insertRow cmp.eqv (target table).key (.set none sets) [r]
          (rowOf (target table).default columns [some f, c, s, n, b]) =
            some [BatchSpec.applySets sets (rowOf (target table).default columns [some f, c, s, n, b]) r] := by
        intro sets
        unfold insertRow
        rw [List.findIdx?_cons, hclash]
        rfl
      rw [hir]
      rfl
    · rw [← hr]
      rfl
  obtain ⟨r', h1, h2⟩ := hrun
  have hs := select_stmt .mysql table ht [f, g] [f, g]
    (by simp [literalName_plain hf, literalName_plain hg]) (.inl (by simp))
  refine ⟨r', h1, h2, _, by rw [ask, hs, Option.bind_some, Stmt.answer, if_pos (show (none, table) = (target table).name from rfl)], ?_⟩
  have hh : Cond.holds cmp ⟨false, b!"filename", [f, g]⟩ r' = true := by simp [Cond.holds, h2, hgg]
  rw [List.filter_cons_of_pos hh]
  have hscan : scanRows cv ((([r'] : List Row).mergeSort (before cmp [])).map fun r => columns.map r) f = none := by
    rw [List.mergeSort_singleton]
    simp [scanRows, columns, scanRow, History.upsert, h2, hne]
  rw [List.filter_nil]
  generalize scanRows cv _ = sel at hscan
  have hm : mkMigs sel [f, g] = ⟨false, f, [], none, false⟩ :: mkMigs sel [g] := by
    rw [mkMigs, if_neg (by simpa using hne), hscan]
  exact ⟨_, _, hm, rfl, by simp [decision, hrep]⟩

/-! ## Examples -/

/-- A row of the history table. -/
def historyRow (f c s n b : String) : Row := fun x =>
  if x = b!"filename" then some f.toList else if x = b!"checksum" then some c.toList
  else if x = b!"started_at" then some s.toList else if x = b!"time_taken_ns" then some n.toList
  else if x = b!"success" then some b.toList else none

/-- Two files with a quote in the name, one of them repeatable. -/
def sampleTable : List Row :=
  [historyRow "01_it's.sql" "aa" "7" "5" "1", historyRow "02_b.sql" "bb" "8" "5" "0",
   historyRow "repeatable/it's.sql" "cc" "9" "5" "1"]

def sampleCmp : Compare :=
  ⟨Sqddl.BatchInsert.beq, fun s p => hasPrefix s (p.takeWhile (· ≠ '%')), fun a b => decide (a ≤ b)⟩

def sampleConv : Conv := ⟨List.length, fun b => b = ['1']⟩

theorem sample_history : IsHistory sampleTable := ⟨by decide +kernel, by decide +kernel⟩

def dialects : List Dialect := [.sqlite, .postgres, .mysql, .sqlserver]

theorem sample_exact (names : List Str) : Exact sampleCmp.eqv names := by
  intro a _ b _
  simp [sampleCmp, Sqddl.BatchInsert.beq]

/-- `select_rows_partial` -/
example (d : Dialect) (hd : d ∈ dialects) :
    PlainName d b!"sqddl history" ∧ [b!"01_it's.sql", b!"03_c.sql"].mapM (literalName d) = some [b!"01_it's.sql", b!"03_c.sql"] ∧
    ask sampleCmp d (keywords d) (target b!"sqddl history") sampleTable
        (selectText d b!"sqddl history" [b!"01_it's.sql", b!"03_c.sql"]) =
      some [[some b!"01_it's.sql", some b!"aa", some b!"7", some b!"5", some b!"1"]] := by
  revert d; decide +kernel

/-- `delete_rows_partial` -/
example (d : Dialect) (hd : d ∈ dialects) :
    (exec sampleCmp d (keywords d) (target b!"history") sampleTable
      (deleteText d b!"history" [b!"01_it's.sql", b!"03_c.sql"])).map namesIn =
      some [b!"02_b.sql", b!"repeatable/it's.sql"] := by
  revert d; decide +kernel

theorem mergeSort_two {α : Type} (le : α → α → Bool) (a b : α) :
    [a, b].mergeSort le = if le a b then [a, b] else [b, a] := by
  simp [List.mergeSort, List.MergeSort.Internal.splitInTwo, List.merge]

/-- `missing_rows_partial`: repeatable files come last. -/
example (d : Dialect) (hd : d ∈ dialects) :
    ask sampleCmp d (keywords d) (target b!"history") sampleTable.reverse (missingText d b!"history" [b!"02_b.sql"]) =
      some [[some b!"01_it's.sql"], [some b!"repeatable/it's.sql"]] := by
  have h1 : stmtOf d (keywords d) (missingText d b!"history" [b!"02_b.sql"]) =
      some (.select [b!"filename"] (none, b!"history") ⟨true, b!"filename", [b!"02_b.sql"]⟩
        [.like b!"filename" b!"repeatable/%", .column b!"filename"]) := by revert d; decide +kernel
  have h2 : sampleTable.reverse.filter (Cond.holds sampleCmp ⟨true, b!"filename", [b!"02_b.sql"]⟩) =
      [historyRow "repeatable/it's.sql" "cc" "9" "5" "1", historyRow "01_it's.sql" "aa" "7" "5" "1"] := rfl
  rw [ask, h1, Option.bind_some, Stmt.answer, if_pos (show (none, b!"history") = (target b!"history").name from rfl),
    h2, mergeSort_two]
  decide +kernel

/-- `rename_rows_partial`: a new name, and one that is taken. -/
example (d : Dialect) (hd : d ∈ dialects) :
    (exec sampleCmp d (keywords d) (target b!"history") sampleTable
      (renameText d b!"history" b!"01_it's.sql" b!"01_'a'.sql")).map namesIn =
      some [b!"01_'a'.sql", b!"02_b.sql", b!"repeatable/it's.sql"] ∧
    (exec sampleCmp d (keywords d) (target b!"history") sampleTable
      (renameText d b!"history" b!"01_it's.sql" b!"02_b.sql")).isNone := by
  revert d; decide +kernel

/-- The rows of a migrate: one file is recorded anew and one for the first time. -/
def sampleRows : List (List (Option Str) × (Str × Migrate.Row)) :=
  [([some b!"02_b.sql", none, some b!"10", some b!"3", some b!"1"], (b!"02_b.sql", ⟨[], some 2, true⟩)),
   ([some b!"03_'.sql", some b!"dd", none, none, some b!"0"], (b!"03_'.sql", ⟨b!"dd", none, false⟩))]

theorem sample_encodes : ∀ p ∈ sampleRows, Encodes sampleConv p.1 p.2 := by
  intro p hp
  simp only [sampleRows, List.mem_cons, List.not_mem_nil, or_false] at hp
  rcases hp with rfl | rfl
  · exact ⟨rfl, rfl, by decide +kernel⟩
  · exact ⟨rfl, rfl, by decide +kernel⟩

/-- `record_rows_partial` -/
example (d : Dialect) (hd : d ∈ dialects) :
    (sampleRows.map (·.2.1)).Nodup ∧
    ((historyInsertInto d b!"history").exec (fun _ => true) true (sampleRows.map (·.1))).2 = .ok ∧
    (runTexts Sqddl.BatchInsert.beq sampleCmp.eqv d (keywords d) (target b!"history")
        ((historyInsertInto d b!"history").sent
          ((historyInsertInto d b!"history").exec (fun _ => true) true (sampleRows.map (·.1))).1) sampleTable).map
        (fun t => t.map fun r => [b!"filename", b!"checksum", b!"success"].map r) =
      some [[some b!"01_it's.sql", some b!"aa", some b!"1"], [some b!"02_b.sql", none, some b!"1"],
        [some b!"repeatable/it's.sql", some b!"cc", some b!"1"], [some b!"03_'.sql", some b!"dd", some b!"0"]] := by
  revert d; decide +kernel

/-- `create_table` and `second_table_refuted`: a name that must be quoted. -/
example (d : Dialect) (hd : d ∈ dialects) : PlainName d b!"Order" ∧ PlainName d b!"history" ∧ b!"Order" ≠ b!"history" := by
  revert d; decide +kernel

/-- `collation_runs_again_refuted`: names are compared without regard to case. -/
example : ((fun a b : Str => toLower a == toLower b) b!"A.sql" b!"a.sql") = true ∧ b!"A.sql" ≠ b!"a.sql" ∧
    isRepeatable b!"A.sql" = false ∧
    ((historyInsertInto .mysql b!"history").exec (fun _ => true) true
      [[some b!"A.sql", none, some b!"10", some b!"3", some b!"1"]]).2 = .ok := by decide +kernel

end HistorySql
