import Verif.Props.DiffAlter

/-!
# What a generated SQLite migration contains

C33-C36 for SQLite.  Only the first schema of each catalog is looked at, virtual tables are left
alone, and constraints are compared by generated names, which the migration writes into both
catalogs first.
-/

namespace Sqddl
open CatalogSpec Go

/-! ## Giving names to constraints changes nothing else -/

/-- one table of `sqliteNameConstraints` -/
def nameTable (t : Table) : Table :=
  if isVirtualTable t then t
  else { t with constraints := t.constraints.map sqliteNameConstraint }

theorem nameTable_fields (t : Table) :
    (nameTable t).tableName = t.tableName ∧ (nameTable t).ignore = t.ignore ∧
    (nameTable t).columns = t.columns ∧ (nameTable t).indexes = t.indexes ∧
    isVirtualTable (nameTable t) = isVirtualTable t := by
  rw [nameTable]
  cases h : isVirtualTable t with
  | true => exact ⟨rfl, rfl, rfl, rfl, h⟩
  | false => exact ⟨rfl, rfl, rfl, rfl, h⟩

theorem sqliteNameConstraints_schemas (c : Catalog) :
    (sqliteNameConstraints c).schemas =
      c.schemas.map fun s => { s with tables := s.tables.map nameTable } := rfl

theorem sqliteEvents_cons {src dest : Catalog} {s d : Schema} {ss ds : List Schema}
    (hs : src.schemas = s :: ss) (hd : dest.schemas = d :: ds) (drop : Bool) :
    diffEvents .sqlite src dest drop =
      sqliteSchemaEvents (sqliteNameConstraints src) (sqliteNameConstraints dest)
        { s with tables := s.tables.map nameTable } { d with tables := d.tables.map nameTable }
        drop := by
  show sqliteEvents src dest drop = _
  simp only [sqliteEvents, hs, hd, sqliteNameConstraints_schemas, List.map_cons]

/-- The tables that a SQLite migration looks at. -/
def _root_.CatalogSpec.sqliteTables (s : Schema) : List Table :=
  s.tables.filter fun t => !t.ignore && !isVirtualTable t

/-- The schema has a table of this name (virtual or not). -/
def _root_.CatalogSpec.schemaHas (s : Schema) (n : Str) : Bool :=
  s.tables.any fun t => !t.ignore && t.tableName == n

/-- The pairs of tables of the same name in two schemas. -/
def _root_.CatalogSpec.sqlitePairs (s d : Schema) : List (Table × Table) :=
  (sqliteTables d).filterMap fun t =>
    ((s.tables.filter fun x => !x.ignore).find? fun x => x.tableName == t.tableName).map
      fun x => (x, t)

section
variable {src dest : Catalog} (hsrc : Ok src) (hdest : Ok dest) {s d : Schema}
  (hs : s ∈ src.schemas) (hd : d ∈ dest.schemas) (drop : Bool)

theorem filter_flatMap_ite' {α β : Type} (p : α → Bool) (f : α → List β) (xs : List α) :
    (xs.flatMap fun x => if p x then [] else f x) =
      (xs.filter fun x => !p x).flatMap f := flatMap_ite_filter p f xs

include hsrc hs in
theorem schemaHas_eq (n : Str) :
    schemaHas s n = ((newCatalogCache src).getTable s n).toOption.isSome := by
  rw [isSome_eq_any (getTable_find hsrc hs n), schemaHas, List.any_filter]

include hsrc hdest hs hd

theorem sqliteSchemaEvents_eq :
    sqliteSchemaEvents src dest s d drop =
      (if drop then ((sqliteTables s).filter fun t => !schemaHas d t.tableName).map Ev.dropTable
       else []) ++
      (sqliteTables d).flatMap fun t =>
        match (s.tables.filter fun x => !x.ignore).find? fun x => x.tableName == t.tableName with
        | none => [Ev.createTable t]
        | some x => sqliteAlterEvents drop
            (sqliteFullAlter (newCatalogCache src) (newCatalogCache dest) x t) := by
  have hp : ∀ t : Table, (!(t.ignore || isVirtualTable t)) = (!t.ignore && !isVirtualTable t) := by
    intro t; cases t.ignore <;> cases isVirtualTable t <;> rfl
  rw [sqliteSchemaEvents]
  congr 1
  · cases drop with
    | false => rfl
    | true =>
      simp only [if_true]
      rw [filter_flatMap_ite' (fun t : Table => t.ignore || isVirtualTable t)]
      simp only [hp]
      rw [← sqliteTables, filter_flatMap_ite' (fun t : Table =>
        ((newCatalogCache dest).getTable d t.tableName).toOption.isSome)]
      simp only [← schemaHas_eq hdest hd]
      induction (sqliteTables s).filter (fun t => !schemaHas d t.tableName) with
      | nil => rfl
      | cons a as ih => rw [List.flatMap_cons, ih]; rfl
  · rw [filter_flatMap_ite' (fun t : Table => t.ignore || isVirtualTable t)]
    simp only [hp]
    rw [← sqliteTables]
    refine flatMap_congr' fun t _ => ?_
    rw [getTable_find hsrc hs]
    generalize List.find? _ _ = o
    cases o <;> rfl

theorem sqlite_alters_eq :
    (sqliteSchemaEvents src dest s d drop).filterMap Ev.alter? =
      (sqlitePairs s d).flatMap fun p =>
        (sqliteAlterEvents drop (sqliteFullAlter (newCatalogCache src) (newCatalogCache dest)
          p.1 p.2)).filterMap Ev.alter? := by
  rw [sqliteSchemaEvents_eq hsrc hdest hs hd, List.filterMap_append, filterMap_eq_nil',
    List.nil_append, sqlitePairs]
  · generalize sqliteTables d = ts
    induction ts with
    | nil => rfl
    | cons t ts ih =>
      rw [List.flatMap_cons, List.filterMap_append, ih, List.filterMap_cons]
      generalize List.find? _ _ = o
      cases o <;> simp [Ev.alter?]
  · intro ev hev
    split at hev
    · obtain ⟨t, -, rfl⟩ := List.mem_map.1 hev; rfl
    · cases hev

/-- A field of the alterTables. -/
theorem sqlite_field {β : Type} (f : AlterTable → List β) (g : Table × Table → List β)
    (hg : ∀ p : Table × Table, InCatalog src p.1 → InCatalog dest p.2 →
      ((sqliteAlterEvents drop (sqliteFullAlter (newCatalogCache src) (newCatalogCache dest)
          p.1 p.2)).filterMap Ev.alter?).flatMap (fun a =>
        (f a).map fun x => (a.destTable.tableName, x)) =
      (g p).map fun x => (p.2.tableName, x)) :
    (((sqliteSchemaEvents src dest s d drop).filterMap Ev.alter?).flatMap fun a =>
      (f a).map fun x => (a.destTable.tableName, x)) =
    (sqlitePairs s d).flatMap fun p => (g p).map fun x => (p.2.tableName, x) := by
  rw [sqlite_alters_eq hsrc hdest hs hd, List.flatMap_assoc]
  refine flatMap_congr' fun p hp => ?_
  simp only [sqlitePairs, List.mem_filterMap, Option.map_eq_some_iff] at hp
  obtain ⟨t, ht, x, hx, rfl⟩ := hp
  exact hg _ ⟨s, hs, (List.mem_filter.1 (List.mem_of_find?_eq_some hx)).1⟩
    ⟨d, hd, (List.mem_filter.1 ht).1⟩

end

theorem find?_map' {α : Type} {f : α → α} {p q : α → Bool} (h : ∀ x, p (f x) = q x) :
    ∀ xs : List α, (xs.map f).find? p = (xs.find? q).map f
  | [] => rfl
  | a :: as => by
    rw [List.map_cons, List.find?_cons, List.find?_cons, h, find?_map' h as]
    cases q a <;> rfl

theorem filter_map' {α : Type} {f : α → α} {p q : α → Bool} (h : ∀ x, p (f x) = q x)
    (xs : List α) : (xs.map f).filter p = (xs.filter q).map f := by
  rw [List.filter_map]
  congr 1
  refine List.filter_congr fun x _ => h x

theorem sqliteTables_name (s : Schema) :
    sqliteTables { s with tables := s.tables.map nameTable } = (sqliteTables s).map nameTable :=
  filter_map' (fun t => by
    obtain ⟨-, h, -, -, h'⟩ := nameTable_fields t; rw [h, h']) _

theorem schemaHas_name (s : Schema) (n : Str) :
    schemaHas { s with tables := s.tables.map nameTable } n = schemaHas s n := by
  rw [schemaHas, schemaHas, List.any_map]
  congr 1; funext t
  obtain ⟨h, h', -⟩ := nameTable_fields t
  simp [h, h']

theorem sqlitePairs_name (s d : Schema) :
    sqlitePairs { s with tables := s.tables.map nameTable }
      { d with tables := d.tables.map nameTable } =
    (sqlitePairs s d).map fun p => (nameTable p.1, nameTable p.2) := by
  rw [sqlitePairs, sqliteTables_name, List.filterMap_map, sqlitePairs, List.map_filterMap]
  refine filterMap_congr' fun t _ => ?_
  simp only [Function.comp, (nameTable_fields t).1]
  rw [filter_map' (q := fun x : Table => !x.ignore) (fun t => by rw [(nameTable_fields t).2.1]),
    find?_map' (q := fun x : Table => x.tableName == t.tableName)
      (fun x => by rw [(nameTable_fields x).1])]
  generalize List.find? _ _ = o
  cases o <;> rfl

/-- A SQLite catalog with a first schema: well-formed after the generated names are written into
it. -/
structure _root_.CatalogSpec.SqliteOk (c : Catalog) (s : Schema) : Prop where
  ok : Ok (sqliteNameConstraints c)
  first : c.schemas.head? = some s

theorem _root_.CatalogSpec.SqliteOk.cons {c : Catalog} {s : Schema} (h : SqliteOk c s) :
    ∃ ss, c.schemas = s :: ss := by
  have := h.first
  cases hc : c.schemas with
  | nil => rw [hc] at this; cases this
  | cons a as => rw [hc] at this; cases this; exact ⟨as, rfl⟩

theorem _root_.CatalogSpec.SqliteOk.mem {c : Catalog} {s : Schema} (h : SqliteOk c s) :
    { s with tables := s.tables.map nameTable } ∈ (sqliteNameConstraints c).schemas := by
  obtain ⟨ss, hss⟩ := SqliteOk.cons h
  rw [sqliteNameConstraints_schemas, hss]
  exact List.mem_cons_self

section
variable {src dest : Catalog} {s d : Schema} (hs : SqliteOk src s) (hd : SqliteOk dest d)
  (drop : Bool)
include hs hd

theorem sqlite_events :
    diffEvents .sqlite src dest drop =
      sqliteSchemaEvents (sqliteNameConstraints src) (sqliteNameConstraints dest)
        { s with tables := s.tables.map nameTable } { d with tables := d.tables.map nameTable }
        drop := by
  obtain ⟨ss, hss⟩ := SqliteOk.cons hs
  obtain ⟨ds, hds⟩ := SqliteOk.cons hd
  exact sqliteEvents_cons hss hds drop

/-- Exactly the tables that are missing in the source are created, each once and in the order of
the destination. -/
theorem sqlite_createTables_exact :
    ((diffEvents .sqlite src dest drop).filterMap Ev.createTable?).map (·.tableName) =
      ((sqliteTables d).filter fun t => !schemaHas s t.tableName).map (·.tableName) := by
  rw [sqlite_events hs hd, sqliteSchemaEvents_eq hs.ok hd.ok hs.mem hd.mem,
    List.filterMap_append, filterMap_eq_nil', List.nil_append, sqliteTables_name, List.flatMap_map,
    List.filterMap_flatMap, List.map_flatMap]
  · have h : ∀ t : Table, (((s.tables.map nameTable).filter fun x => !x.ignore).find? fun x =>
        x.tableName == (nameTable t).tableName).isSome = schemaHas s t.tableName := by
      intro t
      rw [isSome_eq_any rfl, List.any_filter, ← schemaHas_name s, (nameTable_fields t).1]
      rfl
    generalize sqliteTables d = ts
    induction ts with
    | nil => rfl
    | cons t ts ih =>
      rw [List.flatMap_cons, ih, List.filter_cons, ← h t]
      generalize List.find? _ _ = o
      cases o with
      | none => simp [Ev.createTable?, (nameTable_fields t).1]
      | some x =>
        simp only [Option.isSome_some, Bool.not_true, Bool.false_eq_true, if_false]
        rw [filterMap_eq_nil']
        · rfl
        · intro ev hev
          rw [sqliteAlterEvents] at hev
          grind [Ev.createTable?]
  · intro ev hev
    split at hev
    · obtain ⟨t, -, rfl⟩ := List.mem_map.1 hev; rfl
    · cases hev

/-- With dropObjects exactly the tables that are missing in the destination are dropped, each once;
without, none. -/
theorem sqlite_dropTables_exact :
    ((diffEvents .sqlite src dest drop).filterMap Ev.dropTable?).map (·.tableName) =
      if drop then ((sqliteTables s).filter fun t => !schemaHas d t.tableName).map (·.tableName)
      else [] := by
  rw [sqlite_events hs hd, sqliteSchemaEvents_eq hs.ok hd.ok hs.mem hd.mem,
    List.filterMap_append, filterMap_eq_nil' (xs := List.flatMap _ _), List.append_nil]
  · cases drop with
    | false => rfl
    | true =>
      simp only [if_true]
      rw [List.filterMap_map, sqliteTables_name]
      simp only [schemaHas_name]
      rw [filter_map' (q := fun t : Table => !schemaHas d t.tableName)
        (fun t => by rw [(nameTable_fields t).1])]
      simp [Function.comp_def, Ev.dropTable?, nameTable_fields]
  · intro ev hev
    obtain ⟨t, -, hev⟩ := List.mem_flatMap.1 hev
    split at hev
    · rw [List.mem_singleton] at hev; rw [hev]; rfl
    · rw [sqliteAlterEvents] at hev
      grind [Ev.dropTable?]

theorem sqlite_field_name {β : Type} (f : AlterTable → List β) (g : Table × Table → List β)
    (hn : ∀ p : Table × Table, g (nameTable p.1, nameTable p.2) = g p)
    (hg : ∀ p : Table × Table, InCatalog (sqliteNameConstraints src) p.1 →
      InCatalog (sqliteNameConstraints dest) p.2 →
      ((sqliteAlterEvents drop (sqliteFullAlter (newCatalogCache (sqliteNameConstraints src))
        (newCatalogCache (sqliteNameConstraints dest)) p.1 p.2)).filterMap Ev.alter?).flatMap
        (fun a => (f a).map fun x => (a.destTable.tableName, x)) =
      (g p).map fun x => (p.2.tableName, x)) :
    (((diffEvents .sqlite src dest drop).filterMap Ev.alter?).flatMap fun a =>
      (f a).map fun x => (a.destTable.tableName, x)) =
    (sqlitePairs s d).flatMap fun p => (g p).map fun x => (p.2.tableName, x) := by
  rw [sqlite_events hs hd, sqlite_field hs.ok hd.ok hs.mem hd.mem drop f g hg, sqlitePairs_name,
    List.flatMap_map]
  refine flatMap_congr' fun p _ => ?_
  rw [hn, (nameTable_fields p.2).1]

omit hs hd in
theorem live_name (t : Table) :
    liveColumns (nameTable t) = liveColumns t ∧ liveIndexes (nameTable t) = liveIndexes t := by
  obtain ⟨-, -, h1, h2, -⟩ := nameTable_fields t
  rw [liveColumns, h1, liveIndexes, h2]; exact ⟨rfl, rfl⟩

/-- Exactly the columns that are missing in the source are added, each once and in the order of
the destination. -/
theorem sqlite_addColumns_exact :
    (((diffEvents .sqlite src dest drop).filterMap Ev.alter?).flatMap fun a =>
      a.addColumns.map fun x => (a.destTable.tableName, x)) =
    (sqlitePairs s d).flatMap fun p =>
      ((liveColumns p.2).filter fun x => !hasColumn p.1 x.columnName).map fun x =>
        (p.2.tableName, x) := by
  refine sqlite_field_name hs hd drop (·.addColumns) _ (fun p => ?_) (fun p h1 h2 => ?_)
  · simp only [hasColumn, live_name]
  · have := missingColumns_eq hs.ok h1 p.2
    rw [← this]
    rw [sqliteAlterEvents]
    have he : (sqliteFullAlter (newCatalogCache (sqliteNameConstraints src))
      (newCatalogCache (sqliteNameConstraints dest)) p.1 p.2).addColumns =
        missingColumns (newCatalogCache (sqliteNameConstraints src)) p.1 p.2 := rfl
    have hdt : (sqliteFullAlter (newCatalogCache (sqliteNameConstraints src))
      (newCatalogCache (sqliteNameConstraints dest)) p.1 p.2).destTable = p.2 := rfl
    generalize sqliteFullAlter (newCatalogCache (sqliteNameConstraints src))
      (newCatalogCache (sqliteNameConstraints dest)) p.1 p.2 = a at he hdt
    rw [← he, ← hdt]
    cases h : a.worthKeeping with
    | false =>
      simp [AlterTable.worthKeeping] at h; simp [h]
    | true =>
      cases drop with
      | true => simp [Ev.alter?]
      | false =>
        simp only [if_true, Bool.false_eq_true, if_false]
        split
        · simp [Ev.alter?]
        · rename_i h; simp at h; simp [h]

/-- Exactly the indexes that are missing in the source are created. -/
theorem sqlite_createIndexes_exact :
    (((diffEvents .sqlite src dest drop).filterMap Ev.alter?).flatMap fun a =>
      a.createIndexes.map fun x => (a.destTable.tableName, x)) =
    (sqlitePairs s d).flatMap fun p =>
      ((liveIndexes p.2).filter fun x => !hasIndex p.1 x.indexName).map fun x =>
        (p.2.tableName, x) := by
  refine sqlite_field_name hs hd drop (·.createIndexes) _ (fun p => ?_) (fun p h1 h2 => ?_)
  · simp only [hasIndex, live_name]
  · have := missingIndexes_eq hs.ok h1 p.2
    rw [← this]
    rw [sqliteAlterEvents]
    have he : (sqliteFullAlter (newCatalogCache (sqliteNameConstraints src))
      (newCatalogCache (sqliteNameConstraints dest)) p.1 p.2).createIndexes =
        missingIndexes (newCatalogCache (sqliteNameConstraints src)) p.1 p.2 := rfl
    have hdt : (sqliteFullAlter (newCatalogCache (sqliteNameConstraints src))
      (newCatalogCache (sqliteNameConstraints dest)) p.1 p.2).destTable = p.2 := rfl
    generalize sqliteFullAlter (newCatalogCache (sqliteNameConstraints src))
      (newCatalogCache (sqliteNameConstraints dest)) p.1 p.2 = a at he hdt
    rw [← he, ← hdt]
    cases h : a.worthKeeping with
    | false =>
      simp [AlterTable.worthKeeping] at h; simp [h]
    | true =>
      cases drop with
      | true => simp [Ev.alter?]
      | false =>
        simp only [if_true, Bool.false_eq_true, if_false]
        split
        · simp [Ev.alter?]
        · rename_i h; simp at h; simp [h]

/-- With dropObjects exactly the indexes that are missing in the destination are dropped. -/
theorem sqlite_dropIndexes_exact :
    (((diffEvents .sqlite src dest true).filterMap Ev.alter?).flatMap fun a =>
      a.dropIndexes.map fun x => (a.destTable.tableName, x)) =
    (sqlitePairs s d).flatMap fun p =>
      ((liveIndexes p.1).filter fun x => !hasIndex p.2 x.indexName).map fun x =>
        (p.2.tableName, x) := by
  refine sqlite_field_name hs hd true (·.dropIndexes) _ (fun p => ?_) (fun p h1 h2 => ?_)
  · simp only [hasIndex, live_name]
  · have := surplusIndexes_eq hd.ok h2 p.1
    rw [← this]
    rw [sqliteAlterEvents]
    have he : (sqliteFullAlter (newCatalogCache (sqliteNameConstraints src))
      (newCatalogCache (sqliteNameConstraints dest)) p.1 p.2).dropIndexes =
        surplusIndexes (newCatalogCache (sqliteNameConstraints dest)) p.1 p.2 := rfl
    have hdt : (sqliteFullAlter (newCatalogCache (sqliteNameConstraints src))
      (newCatalogCache (sqliteNameConstraints dest)) p.1 p.2).destTable = p.2 := rfl
    generalize sqliteFullAlter (newCatalogCache (sqliteNameConstraints src))
      (newCatalogCache (sqliteNameConstraints dest)) p.1 p.2 = a at he hdt
    rw [← he, ← hdt]
    cases h : a.worthKeeping with
    | false =>
      simp [AlterTable.worthKeeping] at h; simp [h]
    | true => simp [Ev.alter?]

/-- With dropObjects the columns dropped from a table that is altered are exactly its columns that
are missing in the destination.  A table is not altered if it has surplus columns but no other
difference (`surplus_column_kept_refuted`). -/
theorem sqlite_dropColumns_partial :
    ∀ a ∈ (diffEvents .sqlite src dest true).filterMap Ev.alter?,
      a.dropColumns =
        (liveColumns a.srcTable).filter fun x => !hasColumn a.destTable x.columnName := by
  intro a ha
  rw [sqlite_events hs hd, sqlite_alters_eq hs.ok hd.ok hs.mem hd.mem] at ha
  obtain ⟨p, hp, ha⟩ := List.mem_flatMap.1 ha
  simp only [sqlitePairs, List.mem_filterMap, Option.map_eq_some_iff] at hp
  obtain ⟨t, ht, x, hx, rfl⟩ := hp
  have h2 : InCatalog (sqliteNameConstraints dest) t := ⟨_, hd.mem, (List.mem_filter.1 ht).1⟩
  rw [sqliteAlterEvents] at ha
  split at ha
  · simp only [if_true, List.filterMap_cons, Ev.alter?, List.filterMap_nil,
      List.mem_singleton] at ha
    subst ha
    exact surplusColumns_eq hd.ok h2 x
  · cases ha

end

/-- Without dropObjects, for every pair of catalogs: no table, column, index or constraint is
dropped, and no table is rebuilt. -/
theorem sqlite_nothing_dropped (src dest : Catalog) :
    ∀ ev ∈ diffEvents .sqlite src dest false,
      ev.dropSchema? = none ∧ ev.dropTable? = none ∧ ev.dropFkey? = none ∧
        ∀ a, ev.alter? = some a → a.dropColumns = [] ∧ a.dropIndexes = [] ∧
          a.dropConstraints = [] ∧ a.alterColumns = [] ∧ a.addConstraints = [] := by
  have hcreate : ∀ t, (Ev.createTable t).dropSchema? = none ∧
      (Ev.createTable t).dropTable? = none ∧ (Ev.createTable t).dropFkey? = none ∧
        ∀ a, (Ev.createTable t).alter? = some a → a.dropColumns = [] ∧ a.dropIndexes = [] ∧
          a.dropConstraints = [] ∧ a.alterColumns = [] ∧ a.addConstraints = [] :=
    fun t => ⟨rfl, rfl, rfl, fun _ h => by cases h⟩
  intro ev hev
  simp only [diffEvents, sqliteEvents] at hev
  split at hev
  · cases hev
  · cases hev
  · obtain ⟨t, -, rfl⟩ := List.mem_map.1 hev; exact hcreate t
  · split at hev
    · rw [sqliteSchemaEvents] at hev
      simp only [Bool.false_eq_true, if_false, List.nil_append] at hev
      obtain ⟨t, -, hev⟩ := List.mem_flatMap.1 hev
      split at hev
      · cases hev
      · split at hev
        · rw [List.mem_singleton] at hev; subst hev; exact hcreate t
        · rw [sqliteAlterEvents] at hev
          simp only [Bool.false_eq_true, if_false] at hev
          split at hev
          · split at hev
            · rw [List.mem_singleton] at hev
              subst hev
              refine ⟨rfl, rfl, rfl, fun a h => ?_⟩
              cases h
              exact ⟨rfl, rfl, rfl, rfl, rfl⟩
            · cases hev
          · cases hev
    · cases hev

/-- The migration from a catalog to itself is empty. -/
theorem sqlite_diff_self {c : Catalog} (hc : Ok (sqliteNameConstraints c)) (drop : Bool) :
    diffEvents .sqlite c c drop = [] := by
  cases hcs : c.schemas with
  | nil => simp [diffEvents, sqliteEvents, hcs]
  | cons s ss =>
    have hs : SqliteOk c s := ⟨hc, by rw [hcs]; rfl⟩
    rw [sqlite_events hs hs, sqliteSchemaEvents_eq hc hc hs.mem hs.mem, List.append_eq_nil_iff]
    generalize hs' : ({ s with tables := s.tables.map nameTable } : Schema) = s'
    have hmem : s' ∈ (sqliteNameConstraints c).schemas := hs' ▸ hs.mem
    generalize sqliteNameConstraints c = c' at hc hmem
    have hself : ∀ t ∈ sqliteTables s',
        (s'.tables.filter fun x => !x.ignore).find? (fun x => x.tableName == t.tableName) =
          some t := by
      intro t ht
      rw [sqliteTables, List.mem_filter] at ht
      refine find?_self (k := fun x : Table => x.tableName) ?_ ?_
      · exact (hc.ok s' hmem).tables.sublist (List.filter_sublist.map _)
      · exact List.mem_filter.2 ⟨ht.1, by simp at ht; simp [ht.2.1]⟩
    constructor
    · split
      · rw [List.map_eq_nil_iff, List.filter_eq_nil_iff]
        intro t ht
        rw [sqliteTables, List.mem_filter] at ht
        simp at ht
        simp [schemaHas]
        exact ⟨t, ht.1, ht.2.1, rfl⟩
      · rfl
    · refine flatMap_eq_nil' fun t ht => ?_
      rw [hself t ht]
      rw [sqliteTables, List.mem_filter] at ht
      have hin : InCatalog c' t := ⟨s', hmem, ht.1⟩
      have hok := (hc.ok s' hmem).ok t ht.1
      have h1 : surplusColumns (newCatalogCache c') t t = [] := by
        rw [surplusColumns_eq hc hin, List.filter_eq_nil_iff]
        intro x hx; simp [hasColumn]; exact ⟨x, hx, rfl⟩
      have h2 : surplusIndexes (newCatalogCache c') t t = [] := by
        rw [surplusIndexes_eq hc hin, List.filter_eq_nil_iff]
        intro x hx; simp [hasIndex]; exact ⟨x, hx, rfl⟩
      have h3 : surplusConstraints (newCatalogCache c') t t = [] := by
        rw [surplusConstraints_eq hc hin, List.filter_eq_nil_iff]
        intro x hx; simp [hasConstraint]; exact ⟨x, hx, rfl⟩
      have h4 : missingColumns (newCatalogCache c') t t = [] := h1
      have h5 : missingIndexes (newCatalogCache c') t t = [] := h2
      have h6 : missingConstraints (newCatalogCache c') t t = [] := h3
      have h7 : changedColumns .sqlite [] (newCatalogCache c') t t = [] := by
        rw [changedColumns, commonColumns_eq hc hin, commonColumns_self hok,
          List.filter_eq_nil_iff]
        intro p hp
        obtain ⟨x, -, rfl⟩ := List.mem_map.1 hp
        rw [columnsAreDifferent_self]; simp
      simp [sqliteAlterEvents, sqliteFullAlter, AlterTable.worthKeeping, h1, h2, h3, h4, h5, h6,
        h7]

/-! ## The theorems on the two sample catalogs -/

section
open Sample

/-- the first schemas of the sample catalogs -/
def s0 : Schema := src.schemas.head?.getD {}
@[inherit_doc s0]
def d0 : Schema := dest.schemas.head?.getD {}

theorem src_sqliteOk : SqliteOk src s0 := ⟨by decide +kernel, by decide +kernel⟩
theorem dest_sqliteOk : SqliteOk dest d0 := ⟨by decide +kernel, by decide +kernel⟩

example (drop : Bool) : ((diffEvents .sqlite src dest drop).filterMap Ev.createTable?).map
    (·.tableName) = [b!"prize"] := by
  rw [sqlite_createTables_exact src_sqliteOk dest_sqliteOk]; decide +kernel

example : ((diffEvents .sqlite src dest true).filterMap Ev.dropTable?).map
    (·.tableName) = [b!"old"] := by
  rw [sqlite_dropTables_exact src_sqliteOk dest_sqliteOk]; decide +kernel

example (drop : Bool) :
    (((diffEvents .sqlite src dest drop).filterMap Ev.alter?).flatMap fun a =>
      a.addColumns.map fun x => (a.destTable.tableName, x)).map
        (fun p => (p.1, p.2.columnName)) =
    [(b!"actor", b!"secret"), (b!"actor", b!"born")] := by
  rw [sqlite_addColumns_exact src_sqliteOk dest_sqliteOk]; decide +kernel

example (drop : Bool) :
    (((diffEvents .sqlite src dest drop).filterMap Ev.alter?).flatMap fun a =>
      a.createIndexes.map fun x => (a.destTable.tableName, x)).map
        (fun p => (p.1, p.2.indexName)) = [(b!"actor", b!"actor_born_idx")] := by
  rw [sqlite_createIndexes_exact src_sqliteOk dest_sqliteOk]; decide +kernel

example :
    (((diffEvents .sqlite src dest true).filterMap Ev.alter?).flatMap fun a =>
      a.dropIndexes.map fun x => (a.destTable.tableName, x)).map
        (fun p => (p.1, p.2.indexName)) = [(b!"actor", b!"actor_name_idx")] := by
  rw [sqlite_dropIndexes_exact src_sqliteOk dest_sqliteOk]; decide +kernel

example : ∃ a ∈ (diffEvents .sqlite src dest true).filterMap Ev.alter?,
    a.dropColumns.map (·.columnName) = [b!"extra"] := by decide +kernel

example : ∃ a ∈ (diffEvents .sqlite src dest false).filterMap Ev.alter?,
    a.addColumns.map (·.columnName) = [b!"secret", b!"born"] := by decide +kernel

example (drop : Bool) : diffEvents .sqlite src src drop = [] :=
  sqlite_diff_self (by decide +kernel) drop

end

/-! ## Refutations -/

/-- SQLite: a table that differs only in a surplus column is not altered. -/
theorem sqlite_surplus_column_kept_refuted :
    ∃ src dest : Catalog, ∃ s d : Schema, SqliteOk src s ∧ SqliteOk dest d ∧
      (∃ p ∈ sqlitePairs s d, ∃ x ∈ liveColumns p.1, hasColumn p.2 x.columnName = false) ∧
      diffEvents .sqlite src dest true = [] :=
  ⟨{ schemas := [{ tables := [
        { tableName := b!"t", columns := [Sample.col b!"t" b!"a" b!"INT",
          Sample.col b!"t" b!"b" b!"INT"] }] }] },
    { schemas := [{ tables := [
        { tableName := b!"t", columns := [Sample.col b!"t" b!"a" b!"INT"] }] }] },
    _, _, ⟨by decide +kernel, rfl⟩, ⟨by decide +kernel, rfl⟩, by decide +kernel,
    by decide +kernel⟩

/-- SQLite, with dropObjects and a destination without schemas: an ignored table is dropped.  Into
a source without schemas an ignored table is created. -/
theorem sqlite_ignored_table_refuted :
    diffEvents .sqlite { schemas := [{ tables := [{ tableName := b!"t", ignore := true }] }] } {}
      true = [Ev.dropTable { tableName := b!"t", ignore := true }] ∧
    diffEvents .sqlite {} { schemas := [{ tables := [{ tableName := b!"t", ignore := true }] }] }
      false = [Ev.createTable { tableName := b!"t", ignore := true }] := by
  decide +kernel

/-- SQLite: constraints other than primary keys, unique constraints and foreign keys have no name
and are never found, so that a catalog with a CHECK constraint differs from itself. -/
theorem sqlite_check_self_refuted :
    ∃ c : Catalog, diffEvents .sqlite c c true ≠ [] :=
  ⟨{ schemas := [{ tables := [
        { tableName := b!"t", columns := [Sample.col b!"t" b!"a" b!"INT"]
          constraints := [
            { tableName := b!"t", constraintType := CHECK, checkExpr := b!"a > 0" }] }] }] }, by decide +kernel⟩

end Sqddl
