import Verif.Model.Dump
import Verif.Spec.DumpQuery
import Verif.Lemmas.Cache
import Verif.Lemmas.SqliteRead
import Verif.Props.RenderIndex
import Verif.Props.Batch
import Verif.Props.CsvValues
import Verif.Props.CsvLosses

/-!
# Data: every row that is dumped is loaded again (C97)
-/

namespace DumpSpec
open Go Sqddl SqlSpec DdlText Sqddl.Render
open WipeSpec (kws readName)

/-- The dialects of sqddl. -/
def Known (d : Dialect) : Prop := d = .sqlite ∨ d = .postgres ∨ d = .mysql ∨ d = .sqlserver

instance (d : Dialect) : Decidable (Known d) := by unfold Known; infer_instance

theorem from_keyword {d : Dialect} (hd : Known d) : toLower b!"FROM" ∈ keywords d := by
  rcases hd with rfl | rfl | rfl | rfl <;> decide +kernel

theorem mem_colToks (d : Dialect) (cols : List Str) (t : Tok) (h : t ∈ colToks d cols) :
    t = .punct ',' ∨ ∃ c, t = identTok d c := by
  unfold colToks at h
  induction cols with
  | nil => cases h
  | cons c r ih =>
    cases r with
    | nil => simp [commaSep] at h; exact Or.inr ⟨c, h⟩
    | cons y r =>
      simp only [List.map_cons, commaSep, List.cons_append, List.nil_append, List.mem_cons] at h
      rcases h with h | h | h
      · exact Or.inr ⟨c, h⟩
      · exact Or.inl h
      · exact ih h

theorem untilFrom {d : Dialect} (hd : Known d) (cols : List Str) (r : List Tok) :
    untilWord [b!"FROM"] 0 (colToks d cols ++ .word b!"FROM" :: r) = (colToks d cols, .word b!"FROM" :: r) := by
  refine LiteText.untilWord_pass _ _ _ ?_ ⟨_, _, rfl, by decide⟩
  intro t ht
  rcases mem_colToks d cols t ht with rfl | ⟨c, rfl⟩
  · decide
  · have h1 := identTok_not_punct d c
    refine ⟨by simp [deeper, h1], ?_⟩
    simp [isKw_ident d b!"FROM" c (from_keyword hd)]

theorem readNames_cols (d : Dialect) (cols : List Str) (h0 : cols ≠ []) (h : ∀ c ∈ cols, PlainName d c) :
    readNames d (keywords d) (colToks d cols) = some cols := by
  unfold readNames colToks
  rw [splitTop_commaSep _ (by simpa using h0)]
  · have := mapM_map_some (readOne d (keywords d)) (fun c : Str => [identTok d c])
      id cols fun c hc => readOne_ident d c (h c hc)
    simpa using this
  · intro x hx
    obtain ⟨c, -, rfl⟩ := List.mem_map.1 hx
    exact flat_ident d c

theorem kws_one (k : Str) (r : List Tok) : kws [k] (.word k :: r) = some r := kws_self [k] r

/-- the tokens of a SELECT are read -/
theorem readSelect_eq {d : Dialect} (hd : Known d) (cols : List Str) (h0 : cols ≠ [])
    (h : ∀ c ∈ cols, PlainName d c) (n : Name) (hs : ∀ s ∈ n.1, PlainName d s) (hn : PlainName d n.2)
    (order : Option (List Str)) (ho : ∀ o ∈ order, o ≠ [] ∧ ∀ c ∈ o, PlainName d c) :
    readSelect d (keywords d) (.word b!"SELECT" :: (colToks d cols ++ .word b!"FROM" :: (qnameToks d n ++
      order.elim [] fun o => .word b!"ORDER" :: .word b!"BY" :: colToks d o))) = some ⟨cols, n, order.getD []⟩ := by
  unfold readSelect
  rw [kws_one, Option.bind_some, untilFrom hd]
  dsimp only
  rw [readNames_cols d cols h0 h, Option.bind_some, kws_one, Option.bind_some,
    readName_qname d n hs hn _ (by cases order <;> simp), Option.bind_some]
  cases order with
  | none => simp
  | some o =>
    simp only [Option.elim_some, reduceCtorEq, if_false]
    have : kws [b!"ORDER", b!"BY"] (.word b!"ORDER" :: .word b!"BY" :: colToks d o) = some (colToks d o) :=
      kws_self [b!"ORDER", b!"BY"] (colToks d o)
    rw [this, Option.bind_some, readNames_cols d o (ho o rfl).1 (ho o rfl).2]
    rfl

/-- A text of the form of a query of a dump is the SELECT that it should be. -/
theorem selectOf_text {d : Dialect} (hd : Known d) (cur s n : Str) (cols : List Str) (h0 : cols ≠ [])
    (h : ∀ c ∈ cols, PlainName d c) (hs : s ≠ [] → s ≠ cur → PlainName d s) (hn : PlainName d n)
    (order : Option (List Str)) (ho : ∀ o ∈ order, o ≠ [] ∧ ∀ c ∈ o, PlainName d c) :
    selectOf d (keywords d) (b!"SELECT " ++ join b!", " (cols.map (quoteIdentifier d)) ++ b!" FROM " ++
      Wipe.qualified d cur s n ++
      order.elim [] fun o => b!" ORDER BY " ++ join b!", " (o.map (quoteIdentifier d))) = some ⟨cols, tableName cur s n, order.getD []⟩ := by
  have hp : Piece d (order.elim [] fun o => b!" ORDER BY " ++ join b!", " (o.map (quoteIdentifier d)))
      (order.elim [] fun o => .word b!"ORDER" :: .word b!"BY" :: colToks d o) := by
    cases order with
    | none => exact Piece.nil d
    | some o =>
      exact Piece.lit_then d b!" ORDER BY " [.word b!"ORDER", .word b!"BY"] _ _ (by decide)
        (readsP_colNames d o)
  have hr := (reads_lit d b!"SELECT " (by decide) (by decide)).append_p
    (((readsP_colNames d cols).lit (t := b!" FROM ") (us := [.word b!"FROM"]) (by decide)).append_p
      ((readsP_qualified d cur s n).piece hp))
  unfold selectOf
  have e : ∀ a b c : Str, b!"SELECT " ++ a ++ b!" FROM " ++ b ++ c = b!"SELECT " ++ (a ++ b!" FROM " ++ (b ++ c)) := by
    intros; simp
  rw [e, lex_of_readsP hr, Option.bind_some]
  have := readSelect_eq hd cols h0 h (tableName cur s n) (fun x hx => by
    unfold tableName at hx
    dsimp only at hx
    split at hx
    · cases hx
    · rename_i hne
      cases hx
      exact hs (fun e => hne (.inl e)) (fun e => hne (.inr e))) hn order ho
  simpa [show stoks b!"SELECT " = [.word b!"SELECT"] by decide] using this

/-! ## The queries -/

theorem dumped_eq (t : Table) : DumpCsv.dumpedColumns t =
    t.columns.filter fun c => decide (c.generatedExpr = [] ∧ c.isGenerated = false) := by
  unfold DumpCsv.dumpedColumns
  congr 1
  funext c
  cases hg : c.isGenerated <;> by_cases he : c.generatedExpr = [] <;> simp [he]

theorem dumped_names (t : Table) : (DumpCsv.dumpedColumns t).map (·.columnName) = plainColumns t := by
  rw [dumped_eq, plainColumns]

/-- The names of a table can be quoted, it has a column that is not generated, and its primary key, of
which there is at most one, has columns. -/
structure Selectable (d : Dialect) (cur : Str) (t : Table) : Prop where
  schema : t.tableSchema ≠ [] → t.tableSchema ≠ cur → PlainName d t.tableSchema
  name : PlainName d t.tableName
  columns : ∀ c ∈ plainColumns t, PlainName d c
  some : plainColumns t ≠ []
  key : ∀ x ∈ t.constraints, x.constraintType = b!"PRIMARY KEY" → x.ignore = false ∧ x.columns ≠ [] ∧
    (∀ c ∈ x.columns, PlainName d c) ∧ ∀ y ∈ t.constraints, y.constraintType = b!"PRIMARY KEY" → y = x

/-- What the cache says about the primary key. -/
theorem primaryKey_found {c : Catalog} (hc : CatalogSpec.Ok c) {s : Schema} (hs : s ∈ c.schemas) {t : Table}
    (ht : t ∈ s.tables) {d : Dialect} {cur : Str} (h : Selectable d cur t) :
    (((newCatalogCache c).getPrimaryKey t).toOption.map (·.columns)).getD [] = keyColumns t ∧
    ∀ o ∈ ((newCatalogCache c).getPrimaryKey t).toOption.map (·.columns),
      o ≠ [] ∧ ∀ x ∈ o, PlainName d x := by
  have hmem := fun x hx => getPrimaryKey_mem (x := x) hc hs ht hx
  unfold keyColumns
  cases hf : t.constraints.find? fun x => decide (x.constraintType = b!"PRIMARY KEY" ∧ x.ignore = false) with
  | some x =>
    have h1 := List.find?_some hf
    have h2 := List.mem_of_find?_eq_some hf
    have h3 : x.constraintType = b!"PRIMARY KEY" ∧ x.ignore = false := by simpa using h1
    obtain ⟨h4, h5, h6, h7⟩ := h.key x h2 h3.1
    rw [getPrimaryKey_eq hc hs ht h2 h3.1 h3.2 h7]
    refine ⟨rfl, fun o ho => ?_⟩
    cases ho
    exact ⟨h5, h6⟩
  | none =>
    cases hg : ((newCatalogCache c).getPrimaryKey t).toOption with
    | none => exact ⟨rfl, fun o ho => by cases ho⟩
    | some x =>
      obtain ⟨h1, h2, h3⟩ := hmem x hg
      have := List.find?_eq_none.1 hf x h1
      simp [h3] at this
      exact absurd h2 this

/-- C97.  The query of a table selects the columns that are not generated from that table, in the order of
the primary key.

Partial: for tables whose names can be quoted (C18); for a table with only generated columns it is false
(`dump_query_generated_refuted`). -/
theorem tableQuery_partial {d : Dialect} (hd : Known d) {c : Catalog} (hc : CatalogSpec.Ok c) {s : Schema}
    (hs : s ∈ c.schemas) {t : Table} (ht : t ∈ s.tables) (cur : Str) (h : Selectable d cur t) :
    selectOf d (keywords d) (Dump.tableQuery d cur (newCatalogCache c) t) =
      some ⟨plainColumns t, (if t.tableSchema = [] ∨ t.tableSchema = cur then none else some t.tableSchema,
        t.tableName), keyColumns t⟩ := by
  obtain ⟨h1, h2⟩ := primaryKey_found hc hs ht h
  have := selectOf_text hd cur t.tableSchema t.tableName (plainColumns t) h.some h.columns h.schema h.name
    (((newCatalogCache c).getPrimaryKey t).toOption.map (·.columns)) h2
  rw [h1] at this
  rw [tableName] at this
  rw [← this]
  unfold Dump.tableQuery
  rw [← dumped_names, List.map_map]
  cases ((newCatalogCache c).getPrimaryKey t).toOption <;> rfl

/-- There is one query for each table; on SQLite only for those that are not virtual. -/
theorem tableQueries_tables (d : Dialect) (c : Catalog) :
    Dump.tableQueries d c = ((c.schemas.flatMap (·.tables)).filter fun t =>
        !(decide (d = .sqlite) && isVirtualTable t)).map fun t =>
      (t, Dump.tableQuery d c.currentSchema (newCatalogCache c) t) := by
  unfold Dump.tableQueries
  induction c.schemas with
  | nil => rfl
  | cons s ss ih => simp only [List.flatMap_cons, List.filter_append, List.map_append, ih]

theorem place_home (cur : Str) (t : Table) :
    place cur (if t.tableSchema = [] ∨ t.tableSchema = cur then none else some t.tableSchema, t.tableName) =
      homeOf cur t := by
  unfold place homeOf
  by_cases h : t.tableSchema = []
  · simp [h]
  · by_cases h' : t.tableSchema = cur <;> simp [h, h']

/-- C97.  A dump of a table with a primary key does not depend on the order in which the database has its
rows: there is only one answer to the query. -/
theorem dump_deterministic {F} {d : Dialect} (hd : Known d) {c : Catalog} (hc : CatalogSpec.Ok c) {s : Schema}
    (hs : s ∈ c.schemas) {t : Table} (ht : t ∈ s.tables) (cur : Str) (h : Selectable d cur t)
    (le : List (DumpCsv.Value F) → List (DumpCsv.Value F) → Prop)
    (hle : ∀ a b, le a b → le b a → a = b) (db : Data F)
    (hkey : ∀ a ∈ db (homeOf cur t), ∀ b ∈ db (homeOf cur t),
      (keyColumns t).map a = (keyColumns t).map b → a = b) :
    ∃ sel, selectOf d (keywords d) (Dump.tableQuery d cur (newCatalogCache c) t) = some sel ∧
      ∀ x y, Answers le cur db sel x → Answers le cur db sel y → x = y := by
  refine ⟨_, tableQuery_partial hd hc hs ht cur h, ?_⟩
  rintro x y ⟨a, ha, ha', rfl⟩ ⟨b, hb, hb', rfl⟩
  rw [place_home] at ha hb
  have : a = b := List.Perm.eq_of_pairwise (fun p q hp hq h1 h2 =>
    hkey p (ha.subset hp) q (hb.subset hq) (hle _ _ h1 h2)) ha' hb' (ha.trans hb.symm)
  rw [this]

/-! ## Rows -/

section
open Sqddl.DumpCsv CsvSpec

/-- The conditions under which the rows of a table survive: its query can be written, the name of its file
is read back (C69), and every value survives in the column of the table that it is loaded into (C47),
whose columns have the types `types`. -/
structure Restorable {F} (fl : Floats F) (d : Dialect) (o : DumpOpts) (cur : Str) (types : List (Str × Str))
    (hasPkey : Bool) (t : Table) (rows : List (Row F)) : Prop where
  select : Selectable d cur t
  named : t.tableName ≠ []
  noslash : '/' ∉ t.tableSchema ∧ '/' ∉ t.tableName
  nonumber : trimNumber (if t.tableSchema ≠ [] ∧ t.tableSchema ≠ cur then t.tableSchema ++ b!"." ++ t.tableName
      else t.tableName) =
    if t.tableSchema ≠ [] ∧ t.tableSchema ≠ cur then t.tableSchema ++ b!"." ++ t.tableName else t.tableName
  nodot : if t.tableSchema ≠ [] ∧ t.tableSchema ≠ cur then '.' ∉ t.tableSchema else '.' ∉ t.tableName
  pkey : d = .mysql ∨ d = .sqlserver → hasPkey = true
  unix : ∀ c ∈ plainColumns t, UnixText c
  values : ∀ r ∈ rows, ∀ c ∈ dumpedColumns t, ∃ u, types.lookup c.columnName = some u ∧
    Survives fl d o c.columnType (normType d u).1 (r c.columnName)
  visible : 2 ≤ (plainColumns t).length ∨ plainColumns t ≠ [[]] ∧ ∀ r ∈ rows, ∀ c ∈ dumpedColumns t,
    dumpField fl d o.run c.columnType (r c.columnName) ≠ some []

theorem mapM_length {α β : Type} {f : α → Option β} {xs : List α} {ys : List β} (h : xs.mapM f = some ys) :
    ys.length = xs.length := by
  induction xs generalizing ys with
  | nil => cases h; rfl
  | cons x xs ih =>
    rw [List.mapM_cons] at h
    cases hx : f x with
    | none => rw [hx] at h; cases h
    | some y =>
      cases hm : xs.mapM f with
      | none => rw [hx, hm] at h; cases h
      | some zs =>
        rw [hx, hm] at h
        cases h
        simp [ih hm]

theorem loadRows_length {d : Dialect} {l : LoadOpts} {unix : Str → Option Int} {tys : List Str}
    {rs : List (List Str)} {ps : List (List Param)} (h : loadRows d l unix tys rs = some ps) :
    ∀ p ∈ ps, p.length = tys.length := by
  induction rs generalizing ps with
  | nil => cases h; simp
  | cons r rs ih =>
    rw [loadRows] at h
    split at h
    · cases h
    · rename_i hl
      cases hm : (tys.zip r).mapM fun p => loadField d l unix p.1 p.2 with
      | none => rw [hm] at h; cases h
      | some q =>
        cases hr : loadRows d l unix tys rs with
        | none => rw [hm, hr] at h; cases h
        | some qs =>
          rw [hm, hr] at h
          cases h
          have := mapM_length hm
          rw [List.length_zip] at this
          intro p hp
          rcases List.mem_cons.1 hp with rfl | hp
          · have hl' : r.length = tys.length := Decidable.not_not.1 hl
            rw [this, hl', Nat.min_self]
          · exact ih hr p hp

theorem loadCSV_length {d : Dialect} {l : LoadOpts} {unix : Str → Option Int} {hasPkey : Bool}
    {types : List (Str × Str)} {text : Str} {cols : List Str} {ps : List (List Param)}
    (h : loadCSV d l unix hasPkey types text = some (cols, ps)) : ∀ p ∈ ps, p.length = cols.length := by
  unfold loadCSV at h
  cases hr : Csv.read text with
  | nil => rw [hr] at h; cases h
  | cons x xs =>
    rw [hr] at h
    dsimp only at h
    cases hm : loadRows d l unix (columnTypes d hasPkey types x) xs with
    | none => rw [hm] at h; cases h
    | some qs =>
      rw [hm] at h
      cases h
      intro p hp
      rw [loadRows_length hm p hp]
      simp [columnTypes]

/-- C97.  The rows of a table are dumped and loaded: the query of the table is a SELECT, and whatever the
database answers to it, the file is written, is loaded into the same table, and if the batch insert
succeeds its INSERTs have exactly the rows of the table, each once and with every value of the columns
that are not generated.

Partial: for Postgres, MySQL and SQL Server (values in SQLite: C47) under the conditions of `Restorable`,
and if `rows.Next` reaches every row (C68). -/
theorem dump_load_rows_partial {F} (fl : Floats F) (hfl : Exact fl) (space : Str → Bool) (d : Dialect)
    (hd : d = .postgres ∨ d = .mysql ∨ d = .sqlserver) (o : DumpOpts) (l : LoadOpts) (hsame : SameSettings o l)
    (unix : Str → Option Int) {c : Catalog} (hc : CatalogSpec.Ok c) {s : Schema} (hs : s ∈ c.schemas)
    {t : Table} (ht : t ∈ s.tables) (cur : Str) (types : List (Str × Str)) (hasPkey : Bool) (db : Data F)
    (h : Restorable fl d o cur types hasPkey t (db (homeOf cur t)))
    (le : List (Value F) → List (Value F) → Prop) :
    ∃ sel, selectOf d (keywords d) (Dump.tableQuery d cur (newCatalogCache c) t) = some sel ∧
      ∀ answer, Answers le cur db sel answer → ∃ text ps,
        dumpCSV fl space d o.run t answer = some text ∧
        tableOf cur (csvFile cur t.tableSchema t.tableName) = homeOf cur t ∧
        loadCSV d l.run unix hasPkey types text = some (plainColumns t, ps) ∧
        (∃ rows : List (Row F), rows.Perm (db (homeOf cur t)) ∧
          ps.map (stored fl d (dumpedColumns t)) = rows.map fun r => (plainColumns t).map fun x => some (r x)) ∧
        ∀ (bi : BatchInsert) (ok : Nat → Bool) (eof : Bool), bi.columns = plainColumns t → BatchInsert.Fits bi →
          (bi.exec ok eof ps).2 = .ok → ∃ bs : List (List (List Param)), bs.flatten = ps ∧
            BatchSpec.inserts (bi.exec ok eof ps).1 = bs.map fun b => (b.length, b.flatten) := by
  have hk : Known d := by
    rcases hd with rfl | rfl | rfl <;> decide
  refine ⟨_, tableQuery_partial hk hc hs ht cur h.select, ?_⟩
  rintro answer ⟨rows, hp, -, rfl⟩
  dsimp only at hp
  rw [place_home] at hp
  dsimp only
  have hz : ∀ (r : Row F) (cs : List Column) (x : Column × Value F), x ∈ cs.zip ((cs.map (·.columnName)).map r) →
      x.1 ∈ cs ∧ x.2 = r x.1.columnName := by
    intro r cs x hx
    induction cs with
    | nil => cases hx
    | cons c cs ih =>
      rw [List.map_cons, List.map_cons, List.zip_cons_cons] at hx
      rcases List.mem_cons.1 hx with rfl | hx
      · exact ⟨List.mem_cons_self, rfl⟩
      · exact ⟨List.mem_cons_of_mem _ (ih hx).1, (ih hx).2⟩
  have hlen : (dumpedColumns t).length = (plainColumns t).length := by
    rw [← dumped_names, List.length_map]
  obtain ⟨text, ps, e1, e2, e3⟩ := table_roundtrip_partial fl hfl space d
    (by rcases hd with rfl | rfl | rfl <;> decide) o l hsame unix t types hasPkey h.pkey
    (rows.map fun r => (plainColumns t).map r)
    (fun x hx => h.unix _ (by rw [← dumped_names]; exact List.mem_map_of_mem hx))
    (by
      intro q hq
      obtain ⟨r, hr, rfl⟩ := List.mem_map.1 hq
      refine ⟨by simp [hlen], fun x hx => ?_⟩
      rw [← dumped_names] at hx
      obtain ⟨h1, h2⟩ := hz r _ x hx
      rw [h2]
      exact h.values r (hp.subset hr) x.1 h1)
    (by
      rcases h.visible with hv | ⟨hv, hf⟩
      · exact .inl (by rw [hlen]; exact hv)
      · cases hm : dumpedColumns t with
        | nil => exact absurd (by rw [← dumped_names, hm]; rfl) h.select.some
        | cons x xs =>
          cases xs with
          | cons y ys => exact .inl (by simp)
          | nil =>
            refine .inr ⟨⟨x, rfl, fun e => hv ?_⟩, fun q hq z hz' => ?_⟩
            · rw [← dumped_names, hm, List.map_cons, e]; rfl
            · obtain ⟨r, hr, rfl⟩ := List.mem_map.1 hq
              rw [← hm] at hz'
              rw [← dumped_names] at hz'
              obtain ⟨h1, h2⟩ := hz r _ z hz'
              rw [h2]
              exact hf r (hp.subset hr) z.1 h1)
  rw [dumped_names] at e2
  refine ⟨text, ps, e1, csv_table_partial cur _ _ h.named h.noslash h.nonumber h.nodot, e2,
    ⟨rows, hp, ?_⟩, ?_⟩
  · rw [e3, List.map_map]
    refine List.map_congr_left fun r _ => ?_
    simp
  · intro bi ok eof hcols hfits hok
    obtain ⟨bs, -, h2, h3, -⟩ := BatchInsert.batchInsert_sends_rows bi ok eof ps
      (by rw [hcols]; exact loadCSV_length e2) hfits
    exact ⟨bs, h2 hok, h3⟩

end

/-! ## A sample -/

namespace Orders
open Sqddl.DumpCsv CsvSpec

/-- A table with a keyword and a blank in its names, and a generated column. -/
def order : Table :=
  { tableSchema := b!"shop", tableName := b!"order"
    columns := [{ columnName := b!"id", columnType := b!"INT" },
      { columnName := b!"double", columnType := b!"INT", isGenerated := true, generatedExpr := b!"id * 2" },
      { columnName := b!"from", columnType := b!"VARCHAR(9)" }]
    constraints := [{ constraintName := b!"order_pkey", constraintType := b!"PRIMARY KEY", columns := [b!"id"] }] }

def cat : Catalog :=
  { dialect := b!"postgres", currentSchema := b!"public"
    schemas := [{ schemaName := b!"shop", tables := [order] }] }

example : Dump.tableQueries .postgres cat =
    [(order, b!"SELECT id, \"from\" FROM shop.\"order\" ORDER BY id")] := by decide +kernel

theorem selectable : Selectable .postgres b!"public" order where
  schema := fun _ _ => by decide
  name := by decide
  columns := by decide
  some := by decide
  key := by
    intro x hx _
    simp only [order, List.mem_singleton] at hx
    subst hx
    exact ⟨rfl, by decide, by decide, fun y hy _ => by simpa [order] using hy⟩

example : selectOf .postgres (keywords .postgres)
      (Dump.tableQuery .postgres b!"public" (newCatalogCache cat) order) =
    some ⟨[b!"id", b!"from"], (some b!"shop", b!"order"), [b!"id"]⟩ :=
  tableQuery_partial (by decide) (by decide +kernel) (s := { schemaName := b!"shop", tables := [order] })
    (by simp [cat]) (by simp) b!"public" selectable

/-- Two rows. -/
def db : Data Bool := fun k => if k = (b!"shop", b!"order") then
    [fun c => if c = b!"id" then .int 2 else if c = b!"from" then .null else .int 4,
     fun c => if c = b!"id" then .int (-1) else if c = b!"from" then .str b!"a,b" else .int (-2)]
  else []

def types : List (Str × Str) :=
  [(b!"from", b!"CHARACTER VARYING(9)"), (b!"double", b!"INTEGER"), (b!"id", b!"INTEGER")]

theorem restorable : Restorable two .postgres {} b!"public" types false order
    (db (homeOf b!"public" order)) where
  select := selectable
  named := by decide
  noslash := by decide
  nonumber := by decide
  nodot := by decide
  pkey := by simp
  unix := fun c hc => unix_of_not_cr (by revert c; decide)
  values := by
    have hcols : dumpedColumns order = [{ columnName := b!"id", columnType := b!"INT" },
      { columnName := b!"from", columnType := b!"VARCHAR(9)" }] := by decide
    have ha : ¬ hasSuffix (columnType .postgres b!"INT") b!"[]" = true := by decide +kernel
    have hb : ¬ hasSuffix (columnType .postgres b!"VARCHAR(9)") b!"[]" = true := by decide +kernel
    have hint : ∀ i : Int, -2 ^ 63 ≤ i → i < 2 ^ 63 →
        dumpField two .postgres (DumpOpts.run {}) b!"INT" (.int i) ≠ some (DumpOpts.run {}).nullstring →
        Survives two .postgres {} b!"INT" (normType .postgres b!"INTEGER").1 (.int i) :=
      fun i h1 h2 h3 => ⟨⟨.int, by decide +kernel, .inr ⟨⟨h1, h2⟩, trivial⟩, .inl (by decide +kernel), by simp⟩,
        fun _ => h3, .inl rfl, fun h => absurd h ha⟩
    rw [hcols]
    intro r hr c hc
    simp only [List.mem_cons, List.not_mem_nil, or_false] at hc
    simp only [db, show homeOf b!"public" order = (b!"shop", b!"order") by decide, if_true,
      List.mem_cons, List.not_mem_nil, or_false] at hr
    rcases hr with rfl | rfl <;> rcases hc with rfl | rfl
    · exact ⟨b!"INTEGER", by decide, hint 2 (by decide) (by decide) (by decide +kernel)⟩
    · exact ⟨b!"CHARACTER VARYING(9)", by decide, ⟨.text, by decide +kernel, .inl rfl,
        .inl (by decide +kernel), by simp⟩, fun h => absurd rfl h, .inl rfl, fun h => absurd h hb⟩
    · exact ⟨b!"INTEGER", by decide, hint (-1) (by decide) (by decide) (by decide +kernel)⟩
    · exact ⟨b!"CHARACTER VARYING(9)", by decide, ⟨.text, by decide +kernel,
        .inr ⟨trivial, unix_of_not_cr (by decide)⟩, .inl (by decide +kernel), by simp⟩,
        fun _ => by decide +kernel, .inl rfl, fun h => absurd h hb⟩
  visible := .inl (by decide)

example (le : List (Value Bool) → List (Value Bool) → Prop) :=
  dump_load_rows_partial two two_exact (fun _ => false) .postgres (.inl rfl) {} {}
    ⟨rfl, rfl, rfl, rfl, unix_of_not_cr (by decide), unix_of_not_cr (by decide)⟩ (fun _ => none)
    (c := cat) (by decide +kernel) (s := { schemaName := b!"shop", tables := [order] }) (by simp [cat]) (by simp)
    b!"public" types false db restorable le

/-- Rows with the same key are the same. -/
example (le : List (Value Bool) → List (Value Bool) → Prop) (hle : ∀ a b, le a b → le b a → a = b) :
    ∃ sel, selectOf .postgres (keywords .postgres)
        (Dump.tableQuery .postgres b!"public" (newCatalogCache cat) order) = some sel ∧
      ∀ x y, Answers le b!"public" db sel x → Answers le b!"public" db sel y → x = y :=
  dump_deterministic (by decide) (by decide +kernel) (s := { schemaName := b!"shop", tables := [order] })
    (by simp [cat]) (by simp) b!"public" selectable le hle db (by
      intro a ha b hb
      simp only [db, show homeOf b!"public" order = (b!"shop", b!"order") by decide, if_true,
        List.mem_cons, List.not_mem_nil, or_false] at ha hb
      rcases ha with rfl | rfl <;> rcases hb with rfl | rfl <;>
        simp [show keyColumns order = [b!"id"] by decide])

/-- The query of a table with only generated columns is not a SELECT of columns: `SELECT  FROM t`. -/
theorem dump_query_generated_refuted :
    ∃ (c : Catalog) (t : Table), CatalogSpec.Ok c ∧ (∃ s ∈ c.schemas, t ∈ s.tables) ∧
      Dump.tableQuery .mysql c.currentSchema (newCatalogCache c) t = b!"SELECT  FROM t" ∧
      selectOf .mysql (keywords .mysql) (Dump.tableQuery .mysql c.currentSchema (newCatalogCache c) t) = none := by
  refine ⟨{ currentSchema := b!"db", schemas := [{ schemaName := b!"db", tables := [
    { tableSchema := b!"db", tableName := b!"t"
      columns := [{ columnName := b!"one", columnType := b!"INT", generatedExpr := b!"1" }] }] }] }, _,
    by decide +kernel, ⟨_, List.mem_singleton.2 rfl, List.mem_singleton.2 rfl⟩, by decide +kernel, by decide +kernel⟩

end Orders

end DumpSpec
