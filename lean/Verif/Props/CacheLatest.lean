import Verif.Props.CacheOps

/-!
# The catalog cache returns the latest objects: theorems and counterexamples for C31
-/

namespace Sqddl
open CacheSpec

/-- C31: after any sequence of allowed calls, starting with the cache of a proper catalog, there was
no panic, the catalog is the one that searching the lists gives, every lookup gives what a search
gives, and every name occurs once.  Partial: see the `_refuted` theorems for what is not allowed. -/
theorem cache_latest_partial {cat : Catalog} (h : Proper cat) {ks : List Call}
    (hk : Allowed (cat.dialect == b!"postgres") cat ks) :
    ∃ c, calls (newCatalogCache cat) cat ks = some (onCatalogs cat ks, c) ∧
      Faithful c (onCatalogs cat ks) ∧ Distinct (onCatalogs cat ks) := by
  obtain ⟨c, e, hi⟩ := calls_ok (newCatalogCache_inv h) (ks := ks) hk
  exact ⟨c, e, hi.faithful, hi.distinct⟩

/-- Searching after an update gives the new object for its name, and the old objects for others. -/
theorem find_upsert {α : Type} (name : α → Str) (new : α) (xs : List α) (n : Str) :
    (upsert (fun x => name x == name new) new xs).find? (fun x => name x == n) =
      if n = name new then some new else xs.find? fun x => name x == n := by
  by_cases hn : n = name new
  · subst hn
    rw [if_pos rfl]
    unfold upsert
    split
    · rename_i h
      induction xs with
      | nil => cases h
      | cons a xs ih =>
        by_cases ha : name a = name new
        · simp [ha]
        · have h' : (xs.any fun x => name x == name new) = true := by
            simpa [ha] using h
          have e : (name a == name new) = false := by simp [ha]
          rw [List.map_cons, List.find?_cons]
          simp only [e, Bool.false_eq_true, if_false]
          exact ih h'
    · rename_i h
      rw [List.find?_append]
      have : xs.find? (fun x => name x == name new) = none := by
        rw [List.find?_eq_none]
        intro x hx hxn
        exact h (List.any_eq_true.2 ⟨x, hx, hxn⟩)
      rw [this]
      simp
  · rw [if_neg hn]
    have hn' : ¬ name new = n := fun e => hn e.symm
    unfold upsert
    split
    · rename_i h
      clear h
      induction xs with
      | nil => rfl
      | cons a xs ih =>
        rw [List.map_cons, List.find?_cons, List.find?_cons, ih]
        by_cases ha : name a = name new
        · have : ¬ name a = n := fun e => hn (e.symm.trans ha)
          have e : (name a == n) = false := by simp [this]
          have e' : (name new == n) = false := by simp [hn']
          simp only [ha, beq_self_eq_true, if_true, e']
        · simp only [beq_iff_eq, ha, if_false]
    · rw [List.find?_append]
      simp [hn']

/-- Searching after `GetOrCreate` gives the old object, or the new one if there was none. -/
theorem find_ensure {α : Type} (name : α → Str) (new : α) (xs : List α) (n : Str) :
    (ensure (fun x => name x == name new) new xs).find? (fun x => name x == n) =
      (xs.find? fun x => name x == n).or (if n = name new then some new else none) := by
  unfold ensure
  split
  · rename_i h
    by_cases hn : n = name new
    · subst hn
      obtain ⟨x, hx, hxn⟩ := List.any_eq_true.1 h
      cases hf : xs.find? fun x => name x == name new with
      | none => exact absurd hxn (List.find?_eq_none.1 hf x hx)
      | some y => rfl
    · rw [if_neg hn]
      simp
  · rw [List.find?_append]
    by_cases hn : n = name new
    · subst hn; simp
    · have hn' : ¬ name new = n := fun e => hn e.symm
      simp [hn, hn']

/-! ## The last version of a column -/

/-- The column with this name of the table at position `j` of the schema at position `i`. -/
def columnAt (cat : Catalog) (i j : Nat) (n : Str) : Option Column :=
  cat.schemas[i]?.bind fun s => s.tables[j]?.bind fun t => t.columns.find? (·.columnName == n)

/-- The call stores a column under this name. -/
def stores (i j : Nat) (n : Str) : Call → Option Column
  | .schema i' (.table j' (.addOrUpdateColumn x)) =>
    if i' = i ∧ j' = j ∧ x.columnName = n then some x else none
  | _ => none

/-- The column that was stored last under this name. -/
def lastStored (i j : Nat) (n : Str) : List Call → Option Column
  | [] => none
  | k :: ks => (lastStored i j n ks).or (stores i j n k)

/-- The same column, apart from the names of its schema and table. -/
def SameColumn (x y : Column) : Prop :=
  x = { y with tableSchema := x.tableSchema, tableName := x.tableName }

theorem getElem?_ensure {α : Type} {has : α → Bool} {new x : α} {xs : List α} {i : Nat}
    (h : xs[i]? = some x) : (ensure has new xs)[i]? = some x := by
  unfold ensure
  split
  · exact h
  · rw [List.getElem?_append_left (List.getElem?_eq_some_iff.1 h).1]; exact h

theorem getElem?_upsert {α : Type} {has : α → Bool} {new x : α} {xs : List α} {i : Nat}
    (h : xs[i]? = some x) :
    (upsert has new xs)[i]? = some x ∨ (has x = true ∧ (upsert has new xs)[i]? = some new) := by
  unfold upsert
  split
  · rw [List.getElem?_map, h]
    by_cases hx : has x = true
    · exact .inr ⟨hx, by simp [hx]⟩
    · exact .inl (by simp [hx])
  · exact .inl (by rw [List.getElem?_append_left (List.getElem?_eq_some_iff.1 h).1]; exact h)

/-- A table keeps its columns, except for `AddOrUpdateColumn` with the name of the column. -/
theorem onTable_column (t : Table) (k : TableCall) (n : Str) (x : Column)
    (hx : t.columns.find? (·.columnName == n) = some x) :
    (∃ a, k = .addOrUpdateColumn a ∧ a.columnName = n ∧
      (onTable t k).columns.find? (·.columnName == n) =
        some { a with tableSchema := t.tableSchema, tableName := t.tableName }) ∨
    ((∀ a, k = .addOrUpdateColumn a → a.columnName ≠ n) ∧
      (onTable t k).columns.find? (·.columnName == n) = some x) := by
  cases k with
  | getOrCreateColumn m ty =>
    refine .inr ⟨fun a h => (by cases h), ?_⟩
    have := find_ensure (fun y : Column => y.columnName)
      { tableSchema := t.tableSchema, tableName := t.tableName, columnName := m, columnType := ty }
      t.columns n
    simp only [onTable]
    rw [this, hx]; rfl
  | addOrUpdateColumn a =>
    have := find_upsert (fun y : Column => y.columnName)
      { a with tableSchema := t.tableSchema, tableName := t.tableName } t.columns n
    by_cases ha : a.columnName = n
    · refine .inl ⟨a, rfl, ha, ?_⟩
      simp only [onTable]
      rw [this, if_pos ha.symm]
    · refine .inr ⟨fun b hb => ?_, ?_⟩
      · cases hb; exact ha
      · simp only [onTable]
        rw [this, if_neg (fun e => ha e.symm), hx]
  | _ => exact .inr ⟨fun a h => (by cases h), hx⟩

theorem columnAt_some {cat : Catalog} {i j : Nat} {n : Str} {x : Column} :
    columnAt cat i j n = some x ↔ ∃ s t, cat.schemas[i]? = some s ∧ s.tables[j]? = some t ∧
      t.columns.find? (·.columnName == n) = some x := by
  simp [columnAt, Option.bind_eq_some_iff]

/-- A schema keeps its tables with their columns, except for `AddOrUpdateColumn`. -/
theorem onSchema_column {pg : Bool} (s : Schema) (k : SchemaCall)
    (hk : SchemaCall.Allowed pg s k) (j : Nat) (t : Table) (n : Str) (x : Column)
    (ht : s.tables[j]? = some t) (hx : t.columns.find? (·.columnName == n) = some x) :
    ∃ t', (onSchema s k).tables[j]? = some t' ∧
      ((∃ a, k = .table j (.addOrUpdateColumn a) ∧ a.columnName = n ∧
        t'.columns.find? (·.columnName == n) =
          some { a with tableSchema := t.tableSchema, tableName := t.tableName }) ∨
      ((∀ a, k = .table j (.addOrUpdateColumn a) → a.columnName ≠ n) ∧
        t'.columns.find? (·.columnName == n) = some x)) := by
  cases k with
  | getOrCreateTable m => exact ⟨t, getElem?_ensure ht, .inr ⟨fun a h => (by cases h), hx⟩⟩
  | addOrUpdateTable a =>
    rcases getElem?_upsert (has := fun y => y.tableName == a.tableName)
      (new := { a with tableSchema := s.schemaName }) ht with h | ⟨hn, h⟩
    · exact ⟨t, h, .inr ⟨fun a h => (by cases h), hx⟩⟩
    · refine ⟨_, h, .inr ⟨fun a h => (by cases h), ?_⟩⟩
      have ho := hk.2.2.1 t (List.mem_of_getElem? ht) (by simpa using hn)
      have : a.columns = t.columns := congrArg Prod.fst ho
      exact this ▸ hx
  | table j' k =>
    by_cases hj : j' = j
    · subst hj
      refine ⟨onTable t k, ?_, ?_⟩
      · simp only [onSchema, modify_eq_set ht]
        exact List.getElem?_set_self (List.getElem?_eq_some_iff.1 ht).1
      · rcases onTable_column t k n x hx with ⟨a, rfl, h1, h2⟩ | ⟨h1, h2⟩
        · exact .inl ⟨a, rfl, h1, h2⟩
        · exact .inr ⟨fun a ha => by cases ha; exact h1 a rfl, h2⟩
    · refine ⟨t, ?_, .inr ⟨fun a ha => by cases ha; exact absurd rfl hj, hx⟩⟩
      simp only [onSchema]
      rw [List.getElem?_modify, ht]
      simp [hj]
  | _ => exact ⟨t, ht, .inr ⟨fun a h => (by cases h), hx⟩⟩

/-- One call: the column that it stores is there afterwards; otherwise the column that was there. -/
theorem onCatalog_column {pg : Bool} {cat : Catalog} {k : Call} (hk : Call.Allowed pg cat k)
    {i j : Nat} {n : Str} {x : Column} (hx : columnAt cat i j n = some x) :
    ∃ y, columnAt (onCatalog cat k) i j n = some y ∧
      SameColumn y ((stores i j n k).getD x) := by
  obtain ⟨s, t, hs, ht, hc⟩ := columnAt_some.1 hx
  cases k with
  | getOrCreateSchema m =>
    exact ⟨x, columnAt_some.2 ⟨s, t, getElem?_ensure hs, ht, hc⟩, rfl⟩
  | addOrUpdateSchema a =>
    rcases getElem?_upsert (has := fun y => y.schemaName == a.schemaName) (new := a) hs with
      h | ⟨hn, h⟩
    · exact ⟨x, columnAt_some.2 ⟨s, t, h, ht, hc⟩, rfl⟩
    · have ho := hk.2.1 s (List.mem_of_getElem? hs) (by simpa using hn)
      have : a.tables = s.tables := congrArg (fun p => p.2.2.2.2) ho
      exact ⟨x, columnAt_some.2 ⟨a, t, h, this ▸ ht, hc⟩, rfl⟩
  | schema i' k =>
    by_cases hi : i' = i
    · subst hi
      obtain ⟨t', ht', hcol⟩ := onSchema_column s k (hk s hs) j t n x ht hc
      have hsch : (onCatalog cat (.schema i' k)).schemas[i']? = some (onSchema s k) := by
        simp only [onCatalog, modify_eq_set hs]
        exact List.getElem?_set_self (List.getElem?_eq_some_iff.1 hs).1
      rcases hcol with ⟨a, rfl, h1, h2⟩ | ⟨h1, h2⟩
      · refine ⟨_, columnAt_some.2 ⟨_, t', hsch, ht', h2⟩, ?_⟩
        have : stores i' j n (.schema i' (.table j (.addOrUpdateColumn a))) = some a := by
          show (if i' = i' ∧ j = j ∧ a.columnName = n then some a else none) = _
          rw [if_pos ⟨rfl, rfl, h1⟩]
        rw [this]
        rfl
      · refine ⟨x, columnAt_some.2 ⟨_, t', hsch, ht', h2⟩, ?_⟩
        have : stores i' j n (.schema i' k) = none := by
          unfold stores
          split
          · rename_i i2 j2 y heq
            cases heq
            rw [if_neg]
            rintro ⟨-, rfl, h⟩
            exact h1 y rfl h
          · rfl
        rw [this]
        rfl
    · refine ⟨x, columnAt_some.2 ⟨s, t, ?_, ht, hc⟩, ?_⟩
      · simp only [onCatalog]
        rw [List.getElem?_modify, hs]
        simp [hi]
      · have : stores i j n (.schema i' k) = none := by
          unfold stores
          split
          · rename_i i2 j2 y heq
            cases heq
            rw [if_neg]
            rintro ⟨h, -⟩
            exact hi h
          · rfl
        rw [this]
        rfl

theorem SameColumn.trans {x y z : Column} (h1 : SameColumn x y) (h2 : SameColumn y z) :
    SameColumn x z := by
  unfold SameColumn at *
  rw [h1, h2]

/-- C31: a column that exists is, after any allowed calls, the version stored last under its name
(or, if none was stored since, the one that was there). -/
theorem column_latest {pg : Bool} {cat : Catalog} {ks : List Call} (hk : Allowed pg cat ks)
    {i j : Nat} {n : Str} {x : Column} (hx : columnAt cat i j n = some x) :
    ∃ y, columnAt (onCatalogs cat ks) i j n = some y ∧
      SameColumn y ((lastStored i j n ks).getD x) := by
  induction ks generalizing cat x with
  | nil => exact ⟨x, hx, rfl⟩
  | cons k ks ih =>
    obtain ⟨y, hy, e⟩ := onCatalog_column hk.1 hx
    obtain ⟨z, hz, e'⟩ := ih hk.2 hy
    refine ⟨z, hz, ?_⟩
    unfold lastStored
    cases hl : lastStored i j n ks with
    | none =>
      rw [hl] at e'
      exact e'.trans e
    | some w =>
      rw [hl] at e'
      exact e'

/-! ## Examples -/

/-- A catalog with a table and a view. -/
def shop : Catalog where
  dialect := b!"postgres"
  schemas := [{
    schemaName := b!"public"
    enums := [{ enumName := b!"color" }]
    views := [{ viewSchema := b!"public", viewName := b!"v" }]
    tables := [{
      tableSchema := b!"public"
      tableName := b!"item"
      columns := [{ columnName := b!"id", columnType := b!"INT" }]
      constraints := [{ constraintName := b!"item_pkey", constraintType := PRIMARY_KEY,
                        columns := [b!"id"] }] }] }]

/-- It is proper. -/
theorem shop_proper : Proper shop where
  clean := by
    intro s hs
    cases List.mem_singleton.1 hs
    refine ⟨rfl, by decide +kernel, by decide +kernel, by decide +kernel, ?_, ?_, by decide +kernel⟩
    · intro v hv
      cases List.mem_singleton.1 hv
      exact ⟨rfl, rfl, by decide +kernel, by decide +kernel⟩
    · intro t ht
      cases List.mem_singleton.1 ht
      exact ⟨rfl, rfl, by decide +kernel, by decide +kernel, by decide +kernel, by decide +kernel⟩
  distinct := by
    refine ⟨by decide +kernel, fun s hs => ?_⟩
    cases List.mem_singleton.1 hs
    refine ⟨by decide +kernel, by decide +kernel, by decide +kernel, by decide +kernel,
      by decide +kernel, ?_, ?_⟩
    · intro v hv
      cases List.mem_singleton.1 hv
      exact ⟨by decide +kernel, by decide +kernel⟩
    · intro t ht
      cases List.mem_singleton.1 ht
      exact ⟨by decide +kernel, by decide +kernel, by decide +kernel, by decide +kernel⟩
  kinds := by
    intro s hs v hv
    cases List.mem_singleton.1 hs
    cases List.mem_singleton.1 hv
    rfl

/-- Calls that create a table, add a column to it, and change a column. -/
def shopCalls : List Call :=
  [.getOrCreateSchema b!"public", .schema 0 (.getOrCreateTable b!"sale"),
   .schema 0 (.table 1 (.addOrUpdateColumn { columnName := b!"id", columnType := b!"INT" })),
   .schema 0 (.table 1 (.addOrUpdateColumn { columnName := b!"id", columnType := b!"BIGINT" })),
   .schema 0 (.table 0 (.getOrCreateColumn b!"id" b!"TEXT"))]

theorem shopCalls_allowed : Allowed true shop shopCalls := by
  refine ⟨trivial, ?_, ?_, ?_, ?_, trivial⟩
  · intro s hs v hv
    have : s.views = [{ viewSchema := b!"public", viewName := b!"v" }] := by
      have e : (onCatalog shop (.getOrCreateSchema b!"public")).schemas[0]?.map (·.views) =
          some [{ viewSchema := b!"public", viewName := b!"v" }] := by decide +kernel
      rw [hs] at e
      exact Option.some.inj e
    rw [this] at hv
    cases List.mem_singleton.1 hv
    decide
  · exact fun s _ => rfl
  · exact fun s _ => rfl
  · exact fun s _ => trivial

example : ∃ c, calls (newCatalogCache shop) shop shopCalls = some (onCatalogs shop shopCalls, c) ∧
    Faithful c (onCatalogs shop shopCalls) ∧ Distinct (onCatalogs shop shopCalls) :=
  cache_latest_partial shop_proper shopCalls_allowed

example : columnAt (onCatalogs shop shopCalls) 0 1 b!"id" =
    some { tableSchema := b!"public", tableName := b!"sale", columnName := b!"id",
           columnType := b!"BIGINT" } ∧
    lastStored 0 1 b!"id" shopCalls =
      some { columnName := b!"id", columnType := b!"BIGINT" } := by
  decide +kernel

example : ∃ y, columnAt (onCatalogs shop shopCalls) 0 0 b!"id" = some y ∧
    SameColumn y { columnName := b!"id", columnType := b!"INT" } :=
  column_latest shopCalls_allowed (x := { columnName := b!"id", columnType := b!"INT" })
    (by decide +kernel)

/-! ## What is not allowed -/

/-- After the calls, the given lookup in the schema at position 0 gives the value. -/
def after {α : Type} (cat : Catalog) (ks : List Call)
    (look : CatalogCache → Schema → Option α) : Option α :=
  (calls (newCatalogCache cat) cat ks).bind fun r => r.1.schemas[0]?.bind (look r.2)

/-- `GetColumn` in the table at a position. -/
def lookColumn (j : Nat) (n : Str) (c : CatalogCache) (s : Schema) : Option (Got Column) :=
  s.tables[j]?.map fun t => c.getColumn t n

/-- A table with columns that is added as a whole: its columns are not found. -/
theorem table_columns_not_found_refuted :
    after shop [.schema 0 (.addOrUpdateTable
      { tableName := b!"sale", columns := [{ columnName := b!"id" }] })] (lookColumn 1 b!"id") =
        some .nil := by
  decide +kernel

/-- A table that is replaced by one without columns: looking up a column panics. -/
theorem table_replaced_panics_refuted :
    after shop [.schema 0 (.addOrUpdateTable { tableName := b!"item" })] (lookColumn 0 b!"id") =
      some .panic := by
  decide +kernel

/-- A primary key that is updated to another type is still returned as the primary key. -/
theorem pkey_stale_refuted :
    after shop [.schema 0 (.table 0 (.addOrUpdateConstraint
      { constraintName := b!"item_pkey", constraintType := UNIQUE, columns := [b!"id"] }))]
      (fun c s => s.tables[0]?.map fun t => match c.getPrimaryKey t with
        | .found x => x.constraintType
        | _ => []) = some UNIQUE := by
  decide +kernel

/-- An ignored table is not found, and creating it again gives two tables with its name. -/
theorem ignored_duplicate_refuted :
    after shop [.schema 0 (.addOrUpdateTable { tableName := b!"sale", ignore := true }),
        .schema 0 (.getOrCreateTable b!"sale")] (fun _ s => some (s.tables.map (·.tableName))) =
      some [b!"item", b!"sale", b!"sale"] := by
  decide +kernel

/-- On MySQL a routine that was created with arguments is not found with them. -/
theorem routine_arguments_refuted :
    after { shop with dialect := b!"mysql" } [.schema 0 (.getOrCreateRoutine b!"f" b!"a INT")]
      (fun c s => some (c.getRoutine s b!"f" b!"a INT")) = some .nil := by
  decide +kernel

/-- A view and a table with the same name share the positions of their indexes: the index `i` of
the view is not created, because the table has an index `i`. -/
theorem shared_index_refuted :
    after shop [.schema 0 (.getOrCreateTable b!"v"),
        .schema 0 (.table 1 (.getOrCreateIndex b!"i" [b!"a"])),
        .schema 0 (.view 0 (.getOrCreateIndex b!"j" [b!"b"])),
        .schema 0 (.view 0 (.getOrCreateIndex b!"k" [b!"b"])),
        .schema 0 (.view 0 (.getOrCreateIndex b!"i" [b!"b"]))]
      (fun _ s => some (s.views.map fun v => v.indexes.map (·.indexName))) =
      some [[b!"j", b!"k"]] := by
  decide +kernel

end Sqddl
