import Verif.Props.PgMigrates
import Verif.Lemmas.PgDecide

/-!
# Conditions on Postgres databases can be checked

Decision procedures for the conditions of the theorems about migrations, used in examples only.
-/

namespace PgSpec
open SqlSpec Sqddl DdlText PgText FileSpec
open EngineSpec (Key Tbl Db key Safe)
open CatalogSpec (keyConstraint foreignKey liveColumns liveConstraints liveIndexes hasColumn hasIndex
  hasConstraint commonTables TableOk liveTables liveSchemas hasTable hasSchema hasTableConstraint)

/-! ## Catalogs -/

instance (s x : Str) : Decidable (Uncast s x) :=
  decidable_of_iff ((splitCast (Go.trimSpace s)).1 = x ∧
      (splitCast (Go.trimSpace s)).2.all castType = true) (by
    unfold Uncast
    cases (splitCast (Go.trimSpace s)).2 <;> simp)

/-- The default without a cast. -/
def uncast (s : Str) : Str := (splitCast (Go.trimSpace s)).1

instance (s : Str) : Decidable (CastOk s) :=
  decidable_of_iff (s = [] ∨ (Uncast s (uncast s) ∧ uncast s ≠ [] ∧ Go.trimSpace (uncast s) = uncast s)) (by
    refine or_congr Iff.rfl ⟨fun h => ⟨_, h⟩, ?_⟩
    rintro ⟨x, h1, h2⟩
    have : uncast s = x := h1.1
    rw [this]
    exact ⟨h1, h2⟩)

instance (x : Str) : Decidable (Constant x) := by unfold Constant; infer_instance

instance (coll : Str) (early : Bool) (a b : Column) : Decidable (Alterable coll early a b) :=
  decidable_of_iff (a.columnName = b.columnName ∧
      ((a.domainName = [] ∧ b.domainName = []) ∨
        (a.domainName = b.domainName ∧ a.columnType = b.columnType ∧
          a.collationName = b.collationName)) ∧
      (a.generatedExpr = b.generatedExpr ∧ a.generatedExprStored = b.generatedExprStored) ∧
      (a.generatedExpr ≠ [] → a.columnDefault = [] ∧ b.columnDefault = [] ∧
        a.columnIdentity = [] ∧ b.columnIdentity = []) ∧
      (CastOk a.columnDefault ∧ CastOk b.columnDefault) ∧
      (a.columnDefault = [] ∨ b.columnDefault = [] ∨ a.columnDefault = b.columnDefault ∨
        (Uncast a.columnDefault (uncast a.columnDefault) ∧
          Uncast b.columnDefault (uncast b.columnDefault) ∧
          Constant (uncast a.columnDefault) ∧ Constant (uncast b.columnDefault))) ∧
      (a.columnIdentity ≠ [] → a.isNotNull = true ∧ a.columnDefault = []) ∧
      (b.columnIdentity ≠ [] → b.isNotNull = true ∧ b.columnDefault = []) ∧
      (a.columnIdentity = [] → b.columnIdentity ≠ [] → a.isNotNull = true ∨ early = true) ∧
      (a.columnIdentity ≠ [] → b.columnIdentity = [] → b.isNotNull = true ∧ b.columnDefault = []) ∧
      (b.collationName = [] → a.collationName = [] ∨ a.collationName = coll))
    ⟨fun ⟨a1, a2, a3, a4, a5, a6, a7, a8, a9, a10, a11⟩ => ⟨a1, a2, a3, a4, a5, (by
        rcases a6 with h | h | h | h
        · exact Or.inl h
        · exact Or.inr (Or.inl h)
        · exact Or.inr (Or.inr (Or.inl h))
        · exact Or.inr (Or.inr (Or.inr ⟨_, _, h⟩))), a7, a8, a9, a10, a11⟩,
     fun ⟨a1, a2, a3, a4, a5, a6, a7, a8, a9, a10, a11⟩ => ⟨a1, a2, a3, a4, a5, (by
        rcases a6 with h | h | h | ⟨x, y, h1, h2, h3⟩
        · exact Or.inl h
        · exact Or.inr (Or.inl h)
        · exact Or.inr (Or.inr (Or.inl h))
        · have e1 : uncast a.columnDefault = x := h1.1
          have e2 : uncast b.columnDefault = y := h2.1
          rw [e1, e2]
          exact Or.inr (Or.inr (Or.inr ⟨h1, h2, h3⟩))), a7, a8, a9, a10, a11⟩⟩

set_option synthInstance.maxSize 2000 in
set_option synthInstance.maxHeartbeats 400000 in
instance (c : Catalog) : Decidable (Described c) :=
  decidable_of_iff (CatalogSpec.Ok c ∧ (∀ s ∈ liveSchemas c, s.schemaName ≠ []) ∧ PgText.Owned c ∧
      (∀ t ∈ liveTables c, ∀ x ∈ liveConstraints t, x.constraintType ∈
        [b!"PRIMARY KEY", b!"UNIQUE", b!"FOREIGN KEY", b!"CHECK", b!"EXCLUDE"]) ∧
      (∀ t ∈ liveTables c, ∀ x ∈ t.indexes,
        x.tableSchema = t.tableSchema ∧ x.tableName = t.tableName) ∧
      (∀ t ∈ liveTables c, ∀ x ∈ t.constraints, ∀ y ∈ t.constraints, primaryKey x = true →
        primaryKey y = true → x = y) ∧
      (∀ t ∈ liveTables c, ∀ x ∈ liveConstraints t, primaryKey x = true →
        ∀ y ∈ liveColumns t, y.columnName ∈ x.columns → y.isNotNull = true) ∧
      (∀ t ∈ liveTables c, ∀ y ∈ liveColumns t, y.isPrimaryKey = true →
        ∃ x ∈ liveConstraints t, primaryKey x = true ∧ y.columnName ∈ x.columns) ∧
      (∀ t ∈ liveTables c, ∀ x ∈ liveConstraints t, primaryKey x = true →
        ∀ n ∈ x.columns, hasColumn t n = true))
    ⟨fun ⟨a1, a2, a3, a4, a5, a6, a7, a8, a9⟩ => ⟨a1, a2, a3, a4, a5, a6, a7, a8, a9⟩,
     fun ⟨a1, a2, a3, a4, a5, a6, a7, a8, a9⟩ => ⟨a1, a2, a3, a4, a5, a6, a7, a8, a9⟩⟩

instance (cur : Str) (x y : Constraint) : Decidable (SameConstraint cur x y) :=
  decidable_of_iff (kindOf .postgres cur x = kindOf .postgres cur y ∧ x.isNotValid = y.isNotValid ∧
      ((x.isDeferrable = y.isDeferrable ∧ x.isInitiallyDeferred = y.isInitiallyDeferred) ∨
        (foreignKey y = true ∧ (y.isInitiallyDeferred = true → y.isDeferrable = true))))
    ⟨fun ⟨a1, a2, a3⟩ => ⟨a1, a2, a3⟩, fun ⟨a1, a2, a3⟩ => ⟨a1, a2, a3⟩⟩

instance (drop : Bool) (s t : Table) : Decidable (Touched drop s t) := by
  unfold Touched; infer_instance

set_option synthInstance.maxSize 2000 in
set_option synthInstance.maxHeartbeats 400000 in
instance (cur coll : Str) (early drop : Bool) (s t : Table) :
    Decidable (TablePair cur coll early drop s t) :=
  decidable_of_iff (
      ((∀ q ∈ CatalogSpec.commonConstraints s t, SameConstraint cur q.1 q.2) ∧
      (∀ x ∈ liveIndexes s, ∀ y ∈ liveIndexes t, x.indexName = y.indexName →
        idxOf .postgres cur false true x = idxOf .postgres cur false true y) ∧
      (∀ x ∈ liveConstraints t, keyConstraint x = false → foreignKey x = false →
        hasConstraint s x.constraintName = true) ∧
      (drop = true → ∀ x ∈ liveConstraints s, keyConstraint x = false →
        foreignKey x = false → hasConstraint t x.constraintName = false →
        ∃ y ∈ liveColumns s, gone t y = true ∧ conUses y.columnName (conOf .postgres cur x) = true) ∧
      (∀ q ∈ CatalogSpec.commonColumns s t, Alterable coll early q.1 q.2) ∧
      (∀ q ∈ CatalogSpec.commonColumns s t,
        q.1.columnType ≠ q.2.columnType ∨ q.1.collationName ≠ q.2.collationName →
        ∀ y ∈ liveColumns s ++ liveColumns t,
          generatedFrom q.2.columnName (colOf .postgres coll false y) = false)) ∧
      (∀ y ∈ liveColumns t, hasColumn s y.columnName = false →
        addable (colOf .postgres coll false y) = true) ∧
      (∀ x ∈ liveConstraints t, keyConstraint x = true → hasConstraint s x.constraintName = false →
        x.isDeferrable = false ∧ x.isNotValid = false ∧ ∀ n ∈ x.columns, isExpr n = false) ∧
      (drop = true → ∀ y ∈ liveColumns s, gone t y = true →
        (∀ x ∈ liveConstraints s, hasConstraint t x.constraintName = true →
          conUses y.columnName (conOf .postgres cur x) = false) ∧
        (∀ x ∈ liveIndexes s, hasIndex t x.indexName = true →
          idxUses y.columnName (idxOf .postgres cur false true x) = false) ∧
        ∀ z ∈ liveColumns s, generatedFrom y.columnName (colOf .postgres coll false z) = false) ∧
      (drop = true → (∃ y ∈ liveColumns s, gone t y = true) → Touched drop s t) ∧
      (∀ q ∈ CatalogSpec.commonColumns s t, q.1.isNotNull = false → q.2.isNotNull = true →
        hasConstraint s (t.tableName ++ b!"_" ++ q.2.columnName ++ b!"_not_null_check") = false) ∧
      (∀ q ∈ CatalogSpec.commonColumns s t, q.1.isNotNull = true → q.2.isNotNull = false →
        drop = true ∨ (liveConstraints t).any primaryKey = true ∨
        ∀ x ∈ liveConstraints s, primaryKey x = true → q.2.columnName ∉ x.columns))
    ⟨fun ⟨⟨a1, a2, a3, a4, a5, a6⟩, a7, a8, a9, a10, a11, a12⟩ =>
      ⟨a1, a2, a3, a4, a5, a6, a7, a8, a9, a10, a11, a12⟩,
     fun ⟨a1, a2, a3, a4, a5, a6, a7, a8, a9, a10, a11, a12⟩ =>
      ⟨⟨a1, a2, a3, a4, a5, a6⟩, a7, a8, a9, a10, a11, a12⟩⟩

instance (cur coll : Str) (early drop : Bool) (src dest : Catalog) :
    Decidable (Comparable cur coll early drop src dest) :=
  decidable_of_iff ((∀ p ∈ commonTables src dest, TablePair cur coll early drop p.1 p.2) ∧
      (∀ t ∈ liveTables dest, hasTable src t.tableSchema t.tableName = false →
        (∀ x ∈ t.indexes, x.ignore = false) ∧
        ∀ y ∈ liveColumns t, addable (colOf .postgres coll false y) = true) ∧
      (∀ old, ∀ f ∈ PgText.newFkeys src dest old, f.2.isNotValid = false) ∧
      (∀ old, PgText.OneWay (PgText.newFkeys src dest old)) ∧
      (drop = true → PgText.OneWay (PgText.goneFkeys src dest)))
    ⟨fun ⟨a1, a2, a3, a4, a5⟩ => ⟨a1, a2, a3, a4, a5⟩, fun ⟨a1, a2, a3, a4, a5⟩ => ⟨a1, a2, a3, a4, a5⟩⟩

instance (a b : Column) : Decidable (Unchanged a b) := by unfold Unchanged; infer_instance

instance (c : Column) : Decidable (AlterColumnText c) :=
  decidable_of_iff (SelfName postgresKeywords c.columnName ∧ ClauseText .postgres c.columnType ∧
      ¬ HasInnerPair '"' c.collationName ∧ CastOk c.columnDefault ∧
      (Fragment .postgres (splitCast (Go.trimSpace c.columnDefault)).1 ∧
        flat 0 (toks .postgres (splitCast (Go.trimSpace c.columnDefault)).1) = true ∧
        (c.columnDefault ≠ [] → toks .postgres (splitCast (Go.trimSpace c.columnDefault)).1 ≠ [])) ∧
      (c.columnIdentity ≠ [] → Fragment .postgres c.columnIdentity ∧
        toks .postgres c.columnIdentity ∈ identities .postgres) ∧
      PlainName .postgres (c.tableName ++ b!"_" ++ c.columnName ++ b!"_not_null_check"))
    ⟨fun ⟨a1, a2, a3, a4, a5, a6, a7⟩ => ⟨a1, a2, a3, a4, a5, a6, a7⟩,
     fun ⟨a1, a2, a3, a4, a5, a6, a7⟩ => ⟨a1, a2, a3, a4, a5, a6, a7⟩⟩

instance (cur coll : Str) (src dest : Catalog) : Decidable (Expressible cur coll src dest) :=
  decidable_of_iff ((∀ s ∈ liveSchemas src ++ liveSchemas dest, PlainName .postgres s.schemaName) ∧
      (∀ t ∈ liveTables src, PlainName .postgres t.tableName ∧
        (∀ x ∈ liveColumns t, PlainName .postgres x.columnName) ∧
        (∀ x ∈ liveConstraints t, PlainName .postgres x.constraintName) ∧
        ∀ x ∈ liveIndexes t, PlainName .postgres x.indexName) ∧
      (∀ t ∈ liveTables dest, TableText .postgres cur coll t) ∧
      (∀ t ∈ liveTables dest, ∀ x ∈ t.indexes, x.sql = [] ∧ IndexOk .postgres false x) ∧
      ∀ p ∈ commonTables src dest, ∀ q ∈ CatalogSpec.commonColumns p.1 p.2,
        Unchanged q.1 q.2 ∨ AlterColumnText q.2)
    ⟨fun ⟨a1, a2, a3, a4, a5⟩ => ⟨a1, a2, a3, a4, a5⟩, fun ⟨a1, a2, a3, a4, a5⟩ => ⟨a1, a2, a3, a4, a5⟩⟩

instance (pre : Str) (src dest : Catalog) : Decidable (Nameable pre src dest) :=
  decidable_of_iff (Safe pre ∧
      (∀ t ∈ liveTables src ++ liveTables dest, Safe t.tableSchema ∧ Safe t.tableName) ∧
      (∀ t ∈ liveTables src ++ liveTables dest, ∀ x ∈ liveConstraints t, foreignKey x = true →
        Safe x.referencesSchema ∧ Safe x.referencesTable) ∧
      (∀ t ∈ liveTables dest, ∀ x ∈ liveConstraints t, keyConstraint x = true →
        Safe x.constraintName) ∧
      ∀ t ∈ liveTables dest, ∀ x ∈ liveIndexes t, Safe x.indexName)
    ⟨fun ⟨a1, a2, a3, a4, a5⟩ => ⟨a1, a2, a3, a4, a5⟩, fun ⟨a1, a2, a3, a4, a5⟩ => ⟨a1, a2, a3, a4, a5⟩⟩

/-! ## Databases -/

/-- Lists of the names that occur in a database. -/
structure Names where
  keys : List Key
  cons : List Str
  idxs : List Str

/-- The lists have all the names. -/
structure Listed (l : Names) (db : Db) : Prop where
  keys : ∀ k t, db.table k = some t → k ∈ l.keys
  cons : ∀ k t n c, db.table k = some t → t.con n = some c → n ∈ l.cons
  idxs : ∀ k t n x, db.table k = some t → t.idx n = some x → n ∈ l.idxs

/-- The constraints of a database. -/
def allCons (l : Names) (db : Db) : List (Key × Str × Con) :=
  l.keys.flatMap fun k => l.cons.filterMap fun n =>
    ((db.table k).bind fun t => t.con n).map fun c => (k, n, c)

/-- The indexes of a database. -/
def allIdxs (l : Names) (db : Db) : List (Key × Str × Idx) :=
  l.keys.flatMap fun k => l.idxs.filterMap fun n =>
    ((db.table k).bind fun t => t.idx n).map fun x => (k, n, x)

/-- The objects of a database. -/
def allObjs (l : Names) (db : Db) : List (Str × Str × Obj) :=
  (l.keys.filter fun k => (db.table k).isSome).map (fun k => (k.1, k.2, .table)) ++
  (allIdxs l db).map (fun q => (q.1.1, q.2.1, .index q.1.2)) ++
  ((allCons l db).filter fun q => owns q.2.2).map (fun q => (q.1.1, q.2.1, .key q.1.2))

/-- The foreign keys of a database. -/
def allForeign (l : Names) (db : Db) : List (Key × Str × List Str × Ref) :=
  (allCons l db).filterMap fun q =>
    match q.2.2.kind with
    | .foreign cs ref => some (q.1, q.2.1, cs, ref)
    | _ => none

def hasCol (db : Db) (k : Key) (n : Str) : Bool := (db.table k).any fun t => (t.col n).isSome

/-- The columns of a primary key or of a unique constraint. -/
def keyCols : ConKind → Option (List Str)
  | .primary cs => some cs
  | .unique cs => some cs
  | _ => none

def isPrimary : ConKind → Bool
  | .primary _ => true
  | _ => false

section
variable {l : Names} {db : Db}

theorem mem_allCons (h : Listed l db) {k : Key} {t : Tbl} {n : Str} {c : Con}
    (h1 : db.table k = some t) (h2 : t.con n = some c) : (k, n, c) ∈ allCons l db := by
  refine List.mem_flatMap.2 ⟨k, h.keys k t h1, List.mem_filterMap.2 ⟨n, h.cons k t n c h1 h2, ?_⟩⟩
  rw [h1, Option.bind_some, h2, Option.map_some]

theorem allCons_mem {k : Key} {n : Str} {c : Con} (h : (k, n, c) ∈ allCons l db) :
    ∃ t, db.table k = some t ∧ t.con n = some c := by
  obtain ⟨k', -, h⟩ := List.mem_flatMap.1 h
  obtain ⟨n', -, h⟩ := List.mem_filterMap.1 h
  obtain ⟨c', h1, h2⟩ := Option.map_eq_some_iff.1 h
  obtain ⟨t, h3, h4⟩ := Option.bind_eq_some_iff.1 h1
  injection h2 with h5 h6
  injection h6 with h6 h7
  subst h5 h6 h7
  exact ⟨t, h3, h4⟩

theorem mem_allIdxs (h : Listed l db) {k : Key} {t : Tbl} {n : Str} {x : Idx}
    (h1 : db.table k = some t) (h2 : t.idx n = some x) : (k, n, x) ∈ allIdxs l db := by
  refine List.mem_flatMap.2 ⟨k, h.keys k t h1, List.mem_filterMap.2 ⟨n, h.idxs k t n x h1 h2, ?_⟩⟩
  rw [h1, Option.bind_some, h2, Option.map_some]

theorem allIdxs_mem {k : Key} {n : Str} {x : Idx} (h : (k, n, x) ∈ allIdxs l db) :
    ∃ t, db.table k = some t ∧ t.idx n = some x := by
  obtain ⟨k', -, h⟩ := List.mem_flatMap.1 h
  obtain ⟨n', -, h⟩ := List.mem_filterMap.1 h
  obtain ⟨c', h1, h2⟩ := Option.map_eq_some_iff.1 h
  obtain ⟨t, h3, h4⟩ := Option.bind_eq_some_iff.1 h1
  injection h2 with h5 h6
  injection h6 with h6 h7
  subst h5 h6 h7
  exact ⟨t, h3, h4⟩

theorem mem_allObjs (h : Listed l db) {s n : Str} {o : Obj} (h1 : Has db s n o) :
    (s, n, o) ∈ allObjs l db := by
  unfold allObjs
  rw [List.mem_append, List.mem_append]
  cases o with
  | table =>
    obtain ⟨t, h2⟩ := h1
    exact Or.inl (Or.inl (List.mem_map.2 ⟨(s, n), List.mem_filter.2 ⟨h.keys _ t h2, (by
      rw [h2]; rfl)⟩, rfl⟩))
  | index a =>
    obtain ⟨t, x, h2, h3⟩ := h1
    exact Or.inl (Or.inr (List.mem_map.2 ⟨((s, a), n, x), mem_allIdxs h h2 h3, rfl⟩))
  | key a =>
    obtain ⟨t, c, h2, h3, h4⟩ := h1
    exact Or.inr (List.mem_map.2 ⟨((s, a), n, c), List.mem_filter.2 ⟨mem_allCons h h2 h3, h4⟩, rfl⟩)

theorem mem_allForeign (h : Listed l db) {k : Key} {n : Str} {cs : List Str} {ref : Ref}
    (h1 : Foreign db k n cs ref) : (k, n, cs, ref) ∈ allForeign l db := by
  obtain ⟨t, c, h2, h3, h4⟩ := h1
  exact List.mem_filterMap.2 ⟨(k, n, c), mem_allCons h h2 h3, (by dsimp only; rw [h4])⟩

/-- What a foreign key references exists and is a key. -/
def TargetCheck (l : Names) (db : Db) (cols : List Str) (ref : Ref) : Prop :=
  cols.length = ref.cols.length ∧ (db.table (key ref.table)).isSome = true ∧
  (∀ x ∈ ref.cols, hasCol db (key ref.table) x = true) ∧
  ((∃ q ∈ allCons l db, q.1 = key ref.table ∧ q.2.2.deferrable = false ∧
      (keyCols q.2.2.kind).any (fun cs => decide (ref.cols.Perm cs)) = true) ∨
    ∃ q ∈ allIdxs l db, q.1 = key ref.table ∧ q.2.2.unique = true ∧
      q.2.2.cols = plainCols (idxNames q.2.2) ∧ q.2.2.pred = [] ∧ ref.cols.Perm (idxNames q.2.2))

instance (l : Names) (db : Db) (cols : List Str) (ref : Ref) : Decidable (TargetCheck l db cols ref) := by
  unfold TargetCheck; infer_instance

theorem keyCols_some {k : ConKind} {cs : List Str} (h : keyCols k = some cs) :
    k = .primary cs ∨ k = .unique cs := by
  cases k <;> simp_all [keyCols]

theorem target_of {cols : List Str} {ref : Ref} (h : TargetCheck l db cols ref) :
    Target db cols ref := by
  obtain ⟨h1, h2, h3, h4⟩ := h
  obtain ⟨r, hr⟩ := Option.isSome_iff_exists.1 h2
  refine ⟨h1, r, hr, ?_, ?_⟩
  · intro x hx
    have := h3 x hx
    unfold hasCol at this
    rw [hr] at this
    exact this
  · rcases h4 with ⟨⟨k, n, c⟩, hq, h5, h6, h7⟩ | ⟨⟨k, n, x⟩, hq, h5, h6, h7, h8, h9⟩
    · obtain ⟨t, h8, h9⟩ := allCons_mem hq
      dsimp only at h5 h6 h7
      rw [h5, hr] at h8
      injection h8 with h8
      subst h8
      cases hk : keyCols c.kind with
      | none => rw [hk] at h7; cases h7
      | some cs =>
        rw [hk, Option.any_some, decide_eq_true_eq] at h7
        exact ⟨cs, h7, Or.inl ⟨n, c, h9, keyCols_some hk, h6⟩⟩
    · obtain ⟨t, h10, h11⟩ := allIdxs_mem hq
      dsimp only at h5 h6 h7 h8 h9
      rw [h5, hr] at h10
      injection h10 with h10
      subst h10
      exact ⟨_, h9, Or.inr ⟨n, x, h11, h6, h7, h8⟩⟩

/-- The conditions of `Consistent`, for the names in the lists. -/
def ConsistentCheck (l : Names) (db : Db) : Prop :=
  (∀ k ∈ l.keys, (db.table k).isSome = true → db.schema k.1 = true) ∧
  (∀ q ∈ allCons l db, q.2.2.name = some q.2.1 ∧
    (∀ x ∈ EngineSpec.ConKind.cols q.2.2.kind, hasCol db q.1 x = true) ∧
    (q.2.2.initiallyDeferred = true → q.2.2.deferrable = true)) ∧
  (∀ q ∈ allIdxs l db, ∀ y ∈ idxNames q.2.2 ++ q.2.2.incl, hasCol db q.1 y = true) ∧
  (∀ q ∈ allCons l db, ∀ r ∈ allCons l db, q.1 = r.1 → isPrimary q.2.2.kind = true →
    isPrimary r.2.2.kind = true → q.2.1 = r.2.1) ∧
  (∀ f ∈ allForeign l db, TargetCheck l db f.2.2.1 f.2.2.2) ∧
  ∀ o ∈ allObjs l db, ∀ p ∈ allObjs l db, o.1 = p.1 → o.2.1 = p.2.1 → o.2.2 = p.2.2

instance (l : Names) (db : Db) : Decidable (ConsistentCheck l db) := by
  unfold ConsistentCheck; infer_instance

theorem hasCol_iff {k : Key} {t : Tbl} {n : Str} (h : db.table k = some t) :
    hasCol db k n = true ↔ (t.col n).isSome = true := by
  unfold hasCol
  rw [h, Option.any_some]

theorem consistent_of (h : Listed l db) (hc : ConsistentCheck l db) : Consistent db := by
  obtain ⟨h1, h2, h3, h4, h5, h6⟩ := hc
  refine ⟨?_, ?_, ?_, ?_, ?_, ?_, ?_, ?_⟩
  · intro k t hk
    exact h1 k (h.keys k t hk) (by rw [hk]; rfl)
  · intro k t n c hk hn
    exact (h2 _ (mem_allCons h hk hn)).1
  · intro k t n c hk hn x hx
    exact (hasCol_iff hk).1 ((h2 _ (mem_allCons h hk hn)).2.1 x hx)
  · intro k t n x hk hn y hy
    exact (hasCol_iff hk).1 (h3 _ (mem_allIdxs h hk hn) y hy)
  · intro k t n m c d cs ds hk hn hm hc hd
    exact h4 _ (mem_allCons h hk hn) _ (mem_allCons h hk hm) rfl (by dsimp only; rw [hc]; rfl)
      (by dsimp only; rw [hd]; rfl)
  · intro k t n c hk hn
    exact (h2 _ (mem_allCons h hk hn)).2.2
  · intro k n cs ref hf
    exact target_of (h5 _ (mem_allForeign h hf))
  · intro s n o o' ho ho'
    exact h6 _ (mem_allObjs h ho) _ (mem_allObjs h ho') rfl rfl

/-- The conditions of `Passable`, for the names in the lists. -/
def PassableCheck (l : Names) (old new : Db) : Prop :=
  (∀ o ∈ allObjs l old, ∀ p ∈ allObjs l new, o.1 = p.1 → o.2.1 = p.2.1 → o.2.2 = p.2.2) ∧
  (∀ q ∈ allCons l old, (new.table q.1).any (fun t => (t.con q.2.1).isNone) = true →
    ∀ f ∈ allForeign l old, f ∈ allForeign l new → key f.2.2.2.table = q.1 →
      (keyCols q.2.2.kind).all (fun cs => decide (¬ f.2.2.2.cols.Perm cs)) = true) ∧
  ∀ q ∈ allIdxs l old, q.2.2.unique = true →
    (new.table q.1).any (fun t => (t.idx q.2.1).isNone) = true →
    ∀ f ∈ allForeign l old, f ∈ allForeign l new → key f.2.2.2.table = q.1 →
      ¬ f.2.2.2.cols.Perm (idxNames q.2.2)

set_option synthInstance.maxSize 2000 in
set_option synthInstance.maxHeartbeats 400000 in
instance (l : Names) (old new : Db) : Decidable (PassableCheck l old new) := by
  unfold PassableCheck; infer_instance

theorem passable_of {old new : Db} (h : Listed l old) (h' : Listed l new)
    (hc : PassableCheck l old new) : Passable old new := by
  obtain ⟨h1, h2, h3⟩ := hc
  refine ⟨?_, ?_, ?_⟩
  · intro s n o o' ho ho'
    exact h1 _ (mem_allObjs h ho) _ (mem_allObjs h' ho') rfl rfl
  · intro k s t n c cols hs ht hn hk hg k' m cs ref hf hf' e
    have := h2 _ (mem_allCons h hs hn) (by dsimp only; rw [ht, Option.any_some, hg]; rfl) _
      (mem_allForeign h hf) (mem_allForeign h' hf') e
    have e1 : keyCols c.kind = some cols := by rcases hk with hk | hk <;> rw [hk] <;> rfl
    dsimp only at this
    rw [e1, Option.all_some, decide_eq_true_eq] at this
    exact this
  · intro k s t n x hs ht hn hu hg k' m cs ref hf hf' e
    exact h3 _ (mem_allIdxs h hs hn) hu (by dsimp only; rw [ht, Option.any_some, hg]; rfl) _
      (mem_allForeign h hf) (mem_allForeign h' hf') e

end

/-- The names that occur in two catalogs. -/
def namesOf (src dest : Catalog) : Names where
  keys := (liveTables src ++ liveTables dest).map fun t => (t.tableSchema, t.tableName)
  cons := (liveTables src ++ liveTables dest).flatMap fun t =>
    (liveConstraints t).map (·.constraintName)
  idxs := (liveTables src ++ liveTables dest).flatMap fun t => (liveIndexes t).map (·.indexName)

section
variable {cur coll : Str} {drop : Bool} {src dest : Catalog}

theorem con_name {t : Table} {n : Str} {c : Con} (h : (tblOf cur coll t).con n = some c) :
    n ∈ (liveConstraints t).map (·.constraintName) := by
  obtain ⟨y, hy, -⟩ := Option.map_eq_some_iff.1 h
  exact List.mem_map.2 ⟨y, List.mem_of_find?_eq_some hy,
    eq_of_beq (List.find?_some (p := fun c : Constraint => c.constraintName == n) hy)⟩

theorem idx_name {t : Table} {n : Str} {x : Idx} (h : (tblOf cur coll t).idx n = some x) :
    n ∈ (liveIndexes t).map (·.indexName) := by
  obtain ⟨y, hy, -⟩ := Option.map_eq_some_iff.1 h
  exact List.mem_map.2 ⟨y, List.mem_of_find?_eq_some hy,
    eq_of_beq (List.find?_some (p := fun c : Index => c.indexName == n) hy)⟩

theorem tab_names {c : Catalog} {k : Key} {t : Table} (h : tab c k = some t) :
    t ∈ liveTables c ∧ (t.tableSchema, t.tableName) = k :=
  ⟨List.mem_of_find?_eq_some h, eq_of_beq (List.find?_some
    (p := fun t : Table => (t.tableSchema, t.tableName) == k) h)⟩

theorem listed_src : Listed (namesOf src dest) (dbOf cur coll src) := by
  have ht : ∀ k t, (dbOf cur coll src).table k = some t →
      ∃ u ∈ liveTables src, (u.tableSchema, u.tableName) = k ∧ tblOf cur coll u = t := by
    intro k t h
    obtain ⟨u, hu, e⟩ := Option.map_eq_some_iff.1 h
    exact ⟨u, (tab_names hu).1, (tab_names hu).2, e⟩
  refine ⟨?_, ?_, ?_⟩
  · intro k t h
    obtain ⟨u, hu, e, -⟩ := ht k t h
    exact List.mem_map.2 ⟨u, List.mem_append_left _ hu, e⟩
  · intro k t n c h h2
    obtain ⟨u, hu, -, rfl⟩ := ht k t h
    exact List.mem_flatMap.2 ⟨u, List.mem_append_left _ hu, con_name h2⟩
  · intro k t n c h h2
    obtain ⟨u, hu, -, rfl⟩ := ht k t h
    exact List.mem_flatMap.2 ⟨u, List.mem_append_left _ hu, idx_name h2⟩

theorem listed_goal : Listed (namesOf src dest) (goalDb cur coll drop src dest) := by
  have ht : ∀ k t, (goalDb cur coll drop src dest).table k = some t →
      (∃ s ∈ liveTables src, ∃ u ∈ liveTables dest, (u.tableSchema, u.tableName) = k ∧
        goalTbl cur coll drop s u = t) ∨
      ∃ u ∈ liveTables src ++ liveTables dest, (u.tableSchema, u.tableName) = k ∧ tblOf cur coll u = t := by
    intro k t h
    unfold goalDb at h
    dsimp only at h
    cases h1 : tab src k with
    | none =>
      rw [h1] at h
      dsimp only at h
      obtain ⟨u, hu, e⟩ := Option.map_eq_some_iff.1 h
      exact Or.inr ⟨u, List.mem_append_right _ (tab_names hu).1, (tab_names hu).2, e⟩
    | some s =>
      cases h2 : tab dest k with
      | none =>
        rw [h1, h2] at h
        dsimp only at h
        cases drop with
        | true => cases h
        | false =>
          injection h with h
          exact Or.inr ⟨s, List.mem_append_left _ (tab_names h1).1, (tab_names h1).2, h⟩
      | some u =>
        rw [h1, h2] at h
        injection h with h
        exact Or.inl ⟨s, (tab_names h1).1, u, (tab_names h2).1, (tab_names h2).2, h⟩
  refine ⟨?_, ?_, ?_⟩
  · intro k t h
    rcases ht k t h with ⟨s, -, u, hu, e, -⟩ | ⟨u, hu, e, -⟩
    · exact List.mem_map.2 ⟨u, List.mem_append_right _ hu, e⟩
    · exact List.mem_map.2 ⟨u, hu, e⟩
  · intro k t n c h h2
    rcases ht k t h with ⟨s, hs, u, hu, -, rfl⟩ | ⟨u, hu, -, rfl⟩
    · have h2 : goalCon cur drop s u n = some c := h2
      unfold goalCon at h2
      split at h2
      · rename_i y hy
        exact List.mem_flatMap.2 ⟨u, List.mem_append_right _ hu, List.mem_map.2
          ⟨y, List.mem_of_find?_eq_some hy, eq_of_beq (List.find?_some (p := fun c : Constraint => c.constraintName == n) hy)⟩⟩
      · split at h2
        · cases h2
        · rename_i y hy
          exact List.mem_flatMap.2 ⟨s, List.mem_append_left _ hs, List.mem_map.2
            ⟨y, List.mem_of_find?_eq_some hy, eq_of_beq (List.find?_some (p := fun c : Constraint => c.constraintName == n) hy)⟩⟩
    · exact List.mem_flatMap.2 ⟨u, hu, con_name h2⟩
  · intro k t n c h h2
    rcases ht k t h with ⟨s, hs, u, hu, -, rfl⟩ | ⟨u, hu, -, rfl⟩
    · have h2 : EngineSpec.newer drop ((tblOf cur coll s).idx n) ((tblOf cur coll u).idx n) = some c := h2
      cases h3 : (tblOf cur coll u).idx n with
      | some y => exact List.mem_flatMap.2 ⟨u, List.mem_append_right _ hu, idx_name h3⟩
      | none =>
        cases h4 : (tblOf cur coll s).idx n with
        | some y => exact List.mem_flatMap.2 ⟨s, List.mem_append_left _ hs, idx_name h4⟩
        | none =>
          rw [h3, h4] at h2
          cases drop <;> cases h2
    · exact List.mem_flatMap.2 ⟨u, hu, idx_name h2⟩

end

end PgSpec
