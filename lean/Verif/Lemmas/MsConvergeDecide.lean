import Verif.Lemmas.PgConvergeDecide
import Verif.Lemmas.MsDecide
import Verif.Props.MsConverges
import Verif.Spec.MsExpress

/-!
# Conditions on SQL Server databases can be checked

Decision procedures for the conditions of the theorems about migrations, used in examples only.
-/

namespace MsSpec
open SqlSpec Sqddl DdlText DdlSpec
open EngineSpec (Key Tbl Db key Safe)
open CatalogSpec (keyConstraint foreignKey liveColumns liveConstraints liveIndexes hasColumn hasIndex
  hasConstraint commonTables TableOk liveTables liveSchemas hasTable hasSchema hasTableConstraint)
open MsText (Differs OneDiffers)
open PgSpec (gone tab Names Listed allCons allIdxs allForeign mem_allCons allCons_mem mem_allIdxs
  allIdxs_mem hasCol hasCol_iff keyCols keyCols_some isPrimary)

/-! ## Catalogs -/

instance (t : Table) (n : Str) : Decidable (inKey t n) := by unfold inKey; infer_instance

instance (s t : Table) (cols : List Str) : Decidable (Involved s t cols) := by
  unfold Involved; infer_instance

set_option synthInstance.maxSize 2000 in
set_option synthInstance.maxHeartbeats 400000 in
instance (coll : Str) (pkey : Prop) [Decidable pkey] (a b : Column) :
    Decidable (Alterable coll pkey a b) :=
  decidable_of_iff (a.columnName = b.columnName ∧
      (a.domainName = [] ∧ b.domainName = [] ∧ a.isEnum = false ∧ b.isEnum = false) ∧
      (a.generatedExpr = b.generatedExpr ∧ a.generatedExprStored = b.generatedExprStored) ∧
      (a.generatedExpr ≠ [] → ¬ Differs a b ∧ a.columnDefault = [] ∧ a.columnIdentity = []) ∧
      (a.columnIdentity = b.columnIdentity) ∧
      (a.columnIdentity ≠ [] → a.isNotNull = true ∧ b.isNotNull = true ∧
        a.columnDefault = [] ∧ b.columnDefault = []) ∧
      (b.isNotNull = true → ¬ pkey → b.columnIdentity = [] → a.isNotNull = true ∧
        (Differs a b → a.columnType = b.columnType ∧ collationOf coll b = coll)) ∧
      (collationOf coll b = coll → collationOf coll a = coll) ∧
      (a.columnDefault ≠ [] → typeHead a = typeHead b ∧ collationOf coll a = collationOf coll b) ∧
      (Go.trimSpace a.columnDefault = a.columnDefault ∧ Go.trimSpace b.columnDefault = b.columnDefault))
    ⟨fun ⟨a1, a2, a3, a4, a5, a6, a7, a8, a9, a10⟩ => ⟨a1, a2, a3, a4, a5, a6, a7, a8, a9, a10⟩,
     fun ⟨a1, a2, a3, a4, a5, a6, a7, a8, a9, a10⟩ => ⟨a1, a2, a3, a4, a5, a6, a7, a8, a9, a10⟩⟩

set_option synthInstance.maxSize 2000 in
set_option synthInstance.maxHeartbeats 400000 in
instance (c : Catalog) : Decidable (Described c) :=
  decidable_of_iff (CatalogSpec.Ok c ∧ (∀ s ∈ liveSchemas c, s.schemaName ≠ []) ∧ PgText.Owned c ∧
      (∀ t ∈ liveTables c, ∀ x ∈ liveConstraints t, x.constraintType ∈
        [b!"PRIMARY KEY", b!"UNIQUE", b!"FOREIGN KEY", b!"CHECK"]) ∧
      (∀ t ∈ liveTables c, ∀ x ∈ t.indexes,
        x.tableSchema = t.tableSchema ∧ x.tableName = t.tableName) ∧
      (∀ t ∈ liveTables c, ∀ x ∈ t.constraints, ∀ y ∈ t.constraints, PgSpec.primaryKey x = true →
        PgSpec.primaryKey y = true → x = y) ∧
      (∀ t ∈ liveTables c, ∀ x ∈ liveConstraints t, PgSpec.primaryKey x = true →
        ∀ y ∈ liveColumns t, y.columnName ∈ x.columns → y.isNotNull = true ∧ y.generatedExpr = []) ∧
      (∀ t ∈ liveTables c, ∀ x ∈ liveConstraints t, PgSpec.primaryKey x = true →
        ∀ n ∈ x.columns, hasColumn t n = true) ∧
      (∀ t ∈ liveTables c, ∀ y ∈ liveColumns t, ∀ z ∈ liveColumns t, y.columnIdentity ≠ [] →
        z.columnIdentity ≠ [] → y.columnName = z.columnName))
    ⟨fun ⟨a1, a2, a3, a4, a5, a6, a7, a8, a9⟩ => ⟨a1, a2, a3, a4, a5, a6, a7, a8, a9⟩,
     fun ⟨a1, a2, a3, a4, a5, a6, a7, a8, a9⟩ => ⟨a1, a2, a3, a4, a5, a6, a7, a8, a9⟩⟩

instance (drop : Bool) (s t : Table) : Decidable (Touched drop s t) := by
  unfold Touched; infer_instance

set_option synthInstance.maxSize 2000 in
set_option synthInstance.maxHeartbeats 400000 in
instance (cur coll : Str) (drop : Bool) (s t : Table) : Decidable (TablePair cur coll drop s t) :=
  decidable_of_iff (
      ((∀ q ∈ CatalogSpec.commonConstraints s t, conOf .sqlserver cur q.1 = conOf .sqlserver cur q.2) ∧
      (∀ x ∈ liveIndexes s, ∀ y ∈ liveIndexes t, x.indexName = y.indexName →
        idxOf .sqlserver cur false true x = idxOf .sqlserver cur false true y) ∧
      (∀ x ∈ liveConstraints t, keyConstraint x = false → foreignKey x = false →
        hasConstraint s x.constraintName = true) ∧
      (drop = true → ∀ x ∈ liveConstraints s, keyConstraint x = false →
        foreignKey x = false → hasConstraint t x.constraintName = true) ∧
      (∀ q ∈ CatalogSpec.commonColumns s t, Alterable coll (inKey t q.2.columnName) q.1 q.2) ∧
      (∀ x ∈ liveConstraints s, keyConstraint x = true → OneDiffers (s, t) x.columns) ∧
      (∀ x ∈ liveIndexes s, OneDiffers (s, t) x.columns)) ∧
      (∀ q ∈ CatalogSpec.commonColumns s t, Differs q.1 q.2 →
        (∀ x ∈ liveConstraints s, keyConstraint x = false → foreignKey x = false →
          conUses q.1.columnName (conOf .sqlserver cur x) = false) ∧
        (∀ x ∈ liveIndexes s, idxUses q.1.columnName (idxOf .sqlserver cur false true x) = true →
          q.1.columnName ∈ x.columns) ∧
        ∀ z ∈ liveColumns s ++ liveColumns t,
          generatedFrom q.1.columnName (colOf .sqlserver coll false z) = false) ∧
      (∀ y ∈ liveColumns t, hasColumn s y.columnName = false →
        addable (colOf .sqlserver coll false y) = true) ∧
      (∀ y ∈ liveColumns t, hasColumn s y.columnName = false → y.columnIdentity ≠ [] →
        ∀ z ∈ liveColumns s, z.columnIdentity = []) ∧
      (drop = true → ∀ y ∈ liveColumns s, gone t y = true →
        y.columnDefault = [] ∧
        (∀ x ∈ liveConstraints s, hasConstraint t x.constraintName = true →
          conUses y.columnName (conOf .sqlserver cur x) = false) ∧
        (∀ x ∈ liveIndexes s, hasIndex t x.indexName = true →
          idxUses y.columnName (idxOf .sqlserver cur false true x) = false) ∧
        ∀ z ∈ liveColumns s, generatedFrom y.columnName (colOf .sqlserver coll false z) = false) ∧
      (drop = true → (∃ y ∈ liveColumns s, gone t y = true) →
        Touched drop s t ∧ CatalogSpec.commonColumns s t ≠ []) ∧
      (∀ q ∈ CatalogSpec.commonColumns s t, q.1.isNotNull = true → q.2.isNotNull = false →
        drop = true ∨ (liveConstraints t).any PgSpec.primaryKey = true ∨
        ∀ x ∈ liveConstraints s, PgSpec.primaryKey x = true → q.2.columnName ∉ x.columns))
    ⟨fun ⟨⟨a1, a2, a3, a4, a5, a6, a7⟩, a8, a9, a10, a11, a12, a13⟩ =>
      ⟨a1, a2, a3, a4, a5, a6, a7, a8, a9, a10, a11, a12, a13⟩,
     fun ⟨a1, a2, a3, a4, a5, a6, a7, a8, a9, a10, a11, a12, a13⟩ =>
      ⟨⟨a1, a2, a3, a4, a5, a6, a7⟩, a8, a9, a10, a11, a12, a13⟩⟩

instance (cur coll : Str) (drop : Bool) (src dest : Catalog) :
    Decidable (Comparable cur coll drop src dest) :=
  decidable_of_iff ((∀ p ∈ commonTables src dest, TablePair cur coll drop p.1 p.2) ∧
      (∀ t ∈ liveTables dest, hasTable src t.tableSchema t.tableName = false →
        (∀ x ∈ t.indexes, x.ignore = false) ∧
        ∀ y ∈ liveColumns t, addable (colOf .sqlserver coll false y) = true) ∧
      (drop = true → ∀ s ∈ liveSchemas src, hasSchema dest s.schemaName = false →
        ∀ t ∈ s.tables, t.ignore = false) ∧
      MsText.Apart drop src dest ∧ MsText.OneColumn src dest)
    ⟨fun ⟨a1, a2, a3, a4, a5⟩ => ⟨a1, a2, a3, a4, a5⟩, fun ⟨a1, a2, a3, a4, a5⟩ => ⟨a1, a2, a3, a4, a5⟩⟩

/-! ## Names and texts -/

instance (n : Str) : Decidable (SchemaName n) := by unfold SchemaName; infer_instance

set_option synthInstance.maxSize 2000 in
instance (c : Column) : Decidable (AlterColumnText c) :=
  decidable_of_iff (SchemaName c.columnName ∧
      (Fragment .sqlserver c.columnType ∧ flat 0 (toks .sqlserver c.columnType) = true ∧
        quiet [b!"COLLATE", b!"NOT", b!"NULL"] 0 (toks .sqlserver c.columnType) = true ∧
        toks .sqlserver c.columnType ≠ []) ∧
      c.collationName.all wordChar = true ∧
      (Go.trimSpace c.columnDefault ≠ [] → Fragment .sqlserver (Go.trimSpace c.columnDefault) ∧
        flat 0 (toks .sqlserver (Go.trimSpace c.columnDefault)) = true ∧
        quiet [b!"FOR"] 0 (toks .sqlserver (Go.trimSpace c.columnDefault)) = true ∧
        toks .sqlserver (Go.trimSpace c.columnDefault) ≠ []))
    ⟨fun ⟨a1, a2, a3, a4⟩ => ⟨a1, a2, a3, a4⟩, fun ⟨a1, a2, a3, a4⟩ => ⟨a1, a2, a3, a4⟩⟩

set_option synthInstance.maxSize 2000 in
set_option synthInstance.maxHeartbeats 400000 in
instance (cur coll : Str) (src dest : Catalog) : Decidable (Expressible cur coll src dest) :=
  decidable_of_iff ((∀ s ∈ liveSchemas src ++ liveSchemas dest, SchemaName s.schemaName) ∧
      (∀ s ∈ liveSchemas src, hasSchema dest s.schemaName = false →
        (∀ v ∈ s.views, PlainName .sqlserver v.viewName) ∧
        (∀ t ∈ s.tables, PlainName .sqlserver t.tableName) ∧
        ∀ r ∈ s.routines, PlainName .sqlserver r.routineName) ∧
      (∀ t ∈ liveTables src ++ liveTables dest, SchemaName t.tableName) ∧
      (∀ t ∈ liveTables src, (∀ x ∈ liveColumns t, PlainName .sqlserver x.columnName) ∧
        (∀ x ∈ liveConstraints t, ConstraintOk .sqlserver cur x) ∧
        ∀ x ∈ liveIndexes t, x.sql = [] ∧ IndexOk .sqlserver false x) ∧
      (∀ t ∈ liveTables dest, TableText .sqlserver cur coll t) ∧
      (∀ t ∈ liveTables dest, ∀ x ∈ t.indexes, x.sql = [] ∧ IndexOk .sqlserver false x) ∧
      ∀ p ∈ commonTables src dest, ∀ q ∈ CatalogSpec.commonColumns p.1 p.2, Differs q.1 q.2 →
        AlterColumnText q.2)
    ⟨fun ⟨a1, a2, a3, a4, a5, a6, a7⟩ => ⟨a1, a2, a3, a4, a5, a6, a7⟩,
     fun ⟨a1, a2, a3, a4, a5, a6, a7⟩ => ⟨a1, a2, a3, a4, a5, a6, a7⟩⟩

set_option synthInstance.maxSize 2000 in
instance (pre : Str) (src dest : Catalog) : Decidable (Nameable pre src dest) :=
  decidable_of_iff (Safe pre ∧
      (∀ s ∈ liveSchemas src, hasSchema dest s.schemaName = false →
        Safe s.schemaName ∧ ¬ FileSpec.EndsWith s.schemaName b!".undo") ∧
      (∀ t ∈ liveTables src ++ liveTables dest, Safe t.tableSchema ∧ Safe t.tableName) ∧
      (∀ t ∈ liveTables src ++ liveTables dest, ∀ x ∈ liveConstraints t, foreignKey x = true →
        Safe x.referencesSchema ∧ Safe x.referencesTable) ∧
      (∀ t ∈ liveTables src ++ liveTables dest, ∀ x ∈ liveConstraints t, keyConstraint x = true →
        Safe x.constraintName) ∧
      ∀ t ∈ liveTables src ++ liveTables dest, ∀ x ∈ liveIndexes t, Safe x.indexName)
    ⟨fun ⟨a1, a2, a3, a4, a5, a6⟩ => ⟨a1, a2, a3, a4, a5, a6⟩,
     fun ⟨a1, a2, a3, a4, a5, a6⟩ => ⟨a1, a2, a3, a4, a5, a6⟩⟩

/-! ## Databases -/

/-- The objects of a database. -/
def allObjs (l : Names) (db : Db) : List (Str × Str × Obj) :=
  (l.keys.filter fun k => (db.table k).isSome).map (fun k => (k.1, k.2, .table)) ++
  (allCons l db).map (fun q => (q.1.1, q.2.1, .con q.1.2))

section
variable {l : Names} {db : Db}

theorem mem_allObjs (h : Listed l db) {s n : Str} {o : Obj} (h1 : Has db s n o) :
    (s, n, o) ∈ allObjs l db := by
  unfold allObjs
  rw [List.mem_append]
  cases o with
  | table =>
    obtain ⟨t, h2⟩ := h1
    exact Or.inl (List.mem_map.2 ⟨(s, n), List.mem_filter.2 ⟨h.keys _ t h2, (by
      rw [h2]; rfl)⟩, rfl⟩)
  | con a =>
    obtain ⟨t, c, h2, h3⟩ := h1
    exact Or.inr (List.mem_map.2 ⟨((s, a), n, c), mem_allCons h h2 h3, rfl⟩)

theorem mem_allForeign (h : Listed l db) {k : Key} {n : Str} {cs : List Str} {ref : Ref}
    (h1 : Foreign db k n cs ref) : (k, n, cs, ref) ∈ allForeign l db := by
  obtain ⟨t, c, h2, h3, h4⟩ := h1
  exact List.mem_filterMap.2 ⟨(k, n, c), mem_allCons h h2 h3, (by dsimp only; rw [h4])⟩

/-- What a foreign key references exists and is a key. -/
def TargetCheck (l : Names) (db : Db) (cols : List Str) (ref : Ref) : Prop :=
  cols.length = ref.cols.length ∧ (db.table (key ref.table)).isSome = true ∧
  (∀ x ∈ ref.cols, hasCol db (key ref.table) x = true) ∧
  ((∃ q ∈ allCons l db, q.1 = key ref.table ∧
      (keyCols q.2.2.kind).any (fun cs => decide (ref.cols.Perm cs)) = true) ∨
    ∃ q ∈ allIdxs l db, q.1 = key ref.table ∧ q.2.2.unique = true ∧
      q.2.2.cols = (idxNames q.2.2).map (fun c => .column c false) ∧ q.2.2.pred = [] ∧
      ref.cols.Perm (idxNames q.2.2))

instance (l : Names) (db : Db) (cols : List Str) (ref : Ref) : Decidable (TargetCheck l db cols ref) := by
  unfold TargetCheck; infer_instance

theorem target_of {cols : List Str} {ref : Ref} (h : TargetCheck l db cols ref) :
    Target db cols ref := by
  obtain ⟨h1, h2, h3, h4⟩ := h
  obtain ⟨r, hr⟩ := Option.isSome_iff_exists.1 h2
  refine ⟨h1, r, hr, ?_, ?_⟩
  · intro x hx
    exact (hasCol_iff hr).1 (h3 x hx)
  · rcases h4 with ⟨⟨k, n, c⟩, hq, h5, h7⟩ | ⟨⟨k, n, x⟩, hq, h5, h6, h7, h8, h9⟩
    · obtain ⟨t, h8, h9⟩ := allCons_mem hq
      dsimp only at h5 h7
      rw [h5, hr] at h8
      injection h8 with h8
      subst h8
      cases hk : keyCols c.kind with
      | none => rw [hk] at h7; cases h7
      | some cs =>
        rw [hk, Option.any_some, decide_eq_true_eq] at h7
        exact ⟨cs, h7, Or.inl ⟨n, c, h9, keyCols_some hk⟩⟩
    · obtain ⟨t, h10, h11⟩ := allIdxs_mem hq
      dsimp only at h5 h6 h7 h8 h9
      rw [h5, hr] at h10
      injection h10 with h10
      subst h10
      exact ⟨_, h9, Or.inr ⟨n, x, h11, h6, h7, h8⟩⟩

/-- The column of an index is an expression. -/
def isExprCol : IdxCol → Bool
  | .expr _ _ => true
  | .column _ _ => false

/-- The conditions of `Consistent`, for the names in the lists. -/
def ConsistentCheck (l : Names) (db : Db) : Prop :=
  (∀ k ∈ l.keys, (db.table k).isSome = true → db.schema k.1 = true) ∧
  (∀ q ∈ allCons l db, q.2.2.name = some q.2.1 ∧
    ∀ x ∈ EngineSpec.ConKind.cols q.2.2.kind, hasCol db q.1 x = true) ∧
  (∀ q ∈ allIdxs l db, (∀ y ∈ idxNames q.2.2 ++ q.2.2.incl, hasCol db q.1 y = true) ∧
    q.2.2.cols.all (fun c => !isExprCol c) = true) ∧
  (∀ q ∈ allCons l db, ∀ r ∈ allCons l db, q.1 = r.1 → isPrimary q.2.2.kind = true →
    isPrimary r.2.2.kind = true → q.2.1 = r.2.1) ∧
  (∀ f ∈ allForeign l db, TargetCheck l db f.2.2.1 f.2.2.2) ∧
  (∀ o ∈ allObjs l db, ∀ p ∈ allObjs l db, o.1 = p.1 → o.2.1 = p.2.1 → o.2.2 = p.2.2) ∧
  ∀ q ∈ allCons l db, ∀ r ∈ allIdxs l db, q.1 = r.1 → q.2.1 = r.2.1 → EngineSpec.isKey q.2.2 = false

instance (l : Names) (db : Db) : Decidable (ConsistentCheck l db) := by
  unfold ConsistentCheck; infer_instance

theorem consistent_of (h : Listed l db) (hc : ConsistentCheck l db) : Consistent db := by
  obtain ⟨h1, h2, h3, h4, h5, h6, h7⟩ := hc
  refine ⟨?_, ?_, ?_, ?_, ?_, ?_, ?_, ?_⟩
  · intro k t hk
    exact h1 k (h.keys k t hk) (by rw [hk]; rfl)
  · intro k t n c hk hn
    exact (h2 _ (mem_allCons h hk hn)).1
  · intro k t n c hk hn x hx
    exact (hasCol_iff hk).1 ((h2 _ (mem_allCons h hk hn)).2 x hx)
  · intro k t n x hk hn
    refine ⟨fun y hy => (hasCol_iff hk).1 ((h3 _ (mem_allIdxs h hk hn)).1 y hy), ?_⟩
    intro ts d hm
    have := List.all_eq_true.1 (h3 _ (mem_allIdxs h hk hn)).2 _ hm
    cases this
  · intro k t n m c d cs ds hk hn hm hc hd
    exact h4 _ (mem_allCons h hk hn) _ (mem_allCons h hk hm) rfl (by dsimp only; rw [hc]; rfl)
      (by dsimp only; rw [hd]; rfl)
  · intro k n cs ref hf
    exact target_of (h5 _ (mem_allForeign h hf))
  · intro s n o o' ho ho'
    exact h6 _ (mem_allObjs h ho) _ (mem_allObjs h ho') rfl rfl
  · intro k t n c x hk hn hx
    exact h7 _ (mem_allCons h hk hn) _ (mem_allIdxs h hk hx) rfl rfl

/-- A column of the foreign key becomes NOT NULL or NULL, or its type, which has no arguments, gets
another name. -/
def RenewedCheck (src dest : Catalog) (k : Key) (n : Str) : Prop :=
  ∃ p ∈ commonTables src dest, (p.1.tableSchema, p.1.tableName) = k ∧
    ∃ c ∈ liveConstraints p.1, foreignKey c = true ∧ c.constraintName = n ∧
      ∃ q ∈ CatalogSpec.commonColumns p.1 p.2, (q.1.isNotNull ≠ q.2.isNotNull ∨
        (q.1.columnType.contains ')' = false ∧ q.2.columnType.contains ')' = false ∧
          q.1.columnType.head?.any (fun c => !Go.isSpace c) = true ∧
          q.2.columnType.head?.any (fun c => !Go.isSpace c) = true ∧
          typeMeaning .sqlserver (Go.trimSpace q.1.columnType) ≠
            typeMeaning .sqlserver (Go.trimSpace q.2.columnType))) ∧ q.1.columnName ∈ c.columns

instance (src dest : Catalog) (k : Key) (n : Str) : Decidable (RenewedCheck src dest k n) := by
  unfold RenewedCheck; infer_instance

theorem renewed_of {coll : Str} {src dest : Catalog} {k : Key} {n : Str}
    (h : RenewedCheck src dest k n) : Renewed coll src dest k n := by
  obtain ⟨p, h1, h2, c, h3, h4, h5, q, h6, h7, h8⟩ := h
  refine ⟨p, h1, h2, c, h3, h4, h5, q, h6, ?_, h8⟩
  rcases h7 with h7 | ⟨h9, h10, h11, h12, h13⟩
  · exact Or.inr (Or.inr (Or.inl h7))
  · refine Or.inl fun hs =>
      h13 (hs _ _ _ _ (.plain _ ?_) (.plain _ ?_) h11 h12 (fun e => by cases e)).1
    · intro hm
      rw [List.contains_iff_mem.2 hm] at h9
      cases h9
    · intro hm
      rw [List.contains_iff_mem.2 hm] at h10
      cases h10

/-- The conditions of `Passable`, for the names in the lists. -/
def PassableCheck (cur : Str) (drop : Bool) (src dest : Catalog) (l : Names) (old new : Db) : Prop :=
  (∀ o ∈ allObjs l old, ∀ p ∈ allObjs l new, o.1 = p.1 → o.2.1 = p.2.1 → o.2.2 = p.2.2) ∧
  ((∀ q ∈ allCons l new, ∀ r ∈ allIdxs l old, q.1 = r.1 → q.2.1 = r.2.1 →
      EngineSpec.isKey q.2.2 = false) ∧
    ∀ q ∈ allCons l old, ∀ r ∈ allIdxs l new, q.1 = r.1 → q.2.1 = r.2.1 →
      EngineSpec.isKey q.2.2 = false) ∧
  (∀ p ∈ commonTables src dest, ∀ x ∈ liveConstraints p.1, keyConstraint x = true →
    goalCon cur drop p.1 p.2 x.constraintName = none ∨ Involved p.1 p.2 x.columns →
    ∀ f ∈ allForeign l old, f ∈ allForeign l new → ¬ RenewedCheck src dest f.1 f.2.1 →
      key f.2.2.2.table = (p.1.tableSchema, p.1.tableName) → ¬ f.2.2.2.cols.Perm x.columns) ∧
  ∀ p ∈ commonTables src dest, ∀ x ∈ liveIndexes p.1, x.isUnique = true →
    drop = true ∧ hasIndex p.2 x.indexName = false ∨ Involved p.1 p.2 x.columns →
    ∀ f ∈ allForeign l old, f ∈ allForeign l new → ¬ RenewedCheck src dest f.1 f.2.1 →
      key f.2.2.2.table = (p.1.tableSchema, p.1.tableName) → ¬ f.2.2.2.cols.Perm x.columns

set_option synthInstance.maxSize 2000 in
set_option synthInstance.maxHeartbeats 400000 in
instance (cur : Str) (drop : Bool) (src dest : Catalog) (l : Names) (old new : Db) :
    Decidable (PassableCheck cur drop src dest l old new) := by
  unfold PassableCheck; infer_instance

theorem passable_of {cur coll : Str} {drop : Bool} {src dest : Catalog} {old new : Db}
    (h : Listed l old) (h' : Listed l new) (hc : PassableCheck cur drop src dest l old new) :
    Passable cur coll drop src dest old new := by
  obtain ⟨h1, ⟨h2, h3⟩, h4, h5⟩ := hc
  refine ⟨?_, ?_, ?_, ?_⟩
  · intro s n o o' ho ho'
    exact h1 _ (mem_allObjs h ho) _ (mem_allObjs h' ho') rfl rfl
  · intro k s t n hs ht
    exact ⟨fun x c hx hcn => h2 _ (mem_allCons h' ht hcn) _ (mem_allIdxs h hs hx) rfl rfl,
      fun x c hx hcn => h3 _ (mem_allCons h hs hcn) _ (mem_allIdxs h' ht hx) rfl rfl⟩
  · intro p hp x hx hk hg k m cs ref hf hf' hr e
    exact h4 p hp x hx hk hg _ (mem_allForeign h hf) (mem_allForeign h' hf')
      (fun h => hr (renewed_of h)) e
  · intro p hp x hx hk hg k m cs ref hf hf' hr e
    exact h5 p hp x hx hk hg _ (mem_allForeign h hf) (mem_allForeign h' hf')
      (fun h => hr (renewed_of h)) e

end

section
variable {cur coll : Str} {drop : Bool} {src dest : Catalog}

theorem con_name {t : Table} {n : Str} {c : Con} (h : (tblOf cur coll t).con n = some c) :
    n ∈ (liveConstraints t).map (·.constraintName) := by
  obtain ⟨y, hy, -⟩ := Option.map_eq_some_iff.1 h
  exact List.mem_map.2 ⟨y, List.mem_of_find?_eq_some hy,
    eq_of_beq (List.find?_some (p := fun c : Constraint => c.constraintName == n) hy)⟩

theorem idx_name {t : Table} {n : Str} {x : Idx} (h : (tblOf cur coll t).idx n = some x) :
    n ∈ (liveIndexes t).map (·.indexName) := by
  obtain ⟨y, hy, -⟩ := Option.map_eq_some_iff.1 h
  exact List.mem_map.2 ⟨y, List.mem_of_find?_eq_some hy,
    eq_of_beq (List.find?_some (p := fun c : Index => c.indexName == n) hy)⟩

theorem col_name {t : Table} {n : Str} {x : Col} (h : (tblOf cur coll t).col n = some x) :
    n ∈ (liveColumns t).map (·.columnName) := by
  obtain ⟨y, hy, -⟩ := Option.map_eq_some_iff.1 h
  exact List.mem_map.2 ⟨y, List.mem_of_find?_eq_some hy,
    eq_of_beq (List.find?_some (p := fun c : Column => c.columnName == n) hy)⟩

theorem src_tables {k : Key} {t : Tbl} (h : (dbOf cur coll src).table k = some t) :
    ∃ u ∈ liveTables src, (u.tableSchema, u.tableName) = k ∧ tblOf cur coll u = t := by
  obtain ⟨u, hu, e⟩ := Option.map_eq_some_iff.1 h
  exact ⟨u, (PgSpec.tab_names hu).1, (PgSpec.tab_names hu).2, e⟩

theorem goal_tables {k : Key} {t : Tbl} (h : (goalDb cur coll drop src dest).table k = some t) :
    (∃ s ∈ liveTables src, ∃ u ∈ liveTables dest, (u.tableSchema, u.tableName) = k ∧
      goalTbl cur coll drop s u = t) ∨
    ∃ u ∈ liveTables src ++ liveTables dest, (u.tableSchema, u.tableName) = k ∧ tblOf cur coll u = t := by
  unfold goalDb at h
  dsimp only at h
  cases h1 : tab src k with
  | none =>
    rw [h1] at h
    dsimp only at h
    obtain ⟨u, hu, e⟩ := Option.map_eq_some_iff.1 h
    exact Or.inr ⟨u, List.mem_append_right _ (PgSpec.tab_names hu).1, (PgSpec.tab_names hu).2, e⟩
  | some s =>
    cases h2 : tab dest k with
    | none =>
      rw [h1, h2] at h
      dsimp only at h
      cases drop with
      | true => cases h
      | false =>
        injection h with h
        exact Or.inr ⟨s, List.mem_append_left _ (PgSpec.tab_names h1).1, (PgSpec.tab_names h1).2, h⟩
    | some u =>
      rw [h1, h2] at h
      injection h with h
      exact Or.inl ⟨s, (PgSpec.tab_names h1).1, u, (PgSpec.tab_names h2).1, (PgSpec.tab_names h2).2, h⟩

theorem listed_src : Listed (PgSpec.namesOf src dest) (dbOf cur coll src) := by
  refine ⟨?_, ?_, ?_⟩
  · intro k t h
    obtain ⟨u, hu, e, -⟩ := src_tables h
    exact List.mem_map.2 ⟨u, List.mem_append_left _ hu, e⟩
  · intro k t n c h h2
    obtain ⟨u, hu, -, rfl⟩ := src_tables h
    exact List.mem_flatMap.2 ⟨u, List.mem_append_left _ hu, con_name h2⟩
  · intro k t n c h h2
    obtain ⟨u, hu, -, rfl⟩ := src_tables h
    exact List.mem_flatMap.2 ⟨u, List.mem_append_left _ hu, idx_name h2⟩

theorem listed_goal : Listed (PgSpec.namesOf src dest) (goalDb cur coll drop src dest) := by
  refine ⟨?_, ?_, ?_⟩
  · intro k t h
    rcases goal_tables h with ⟨s, -, u, hu, e, -⟩ | ⟨u, hu, e, -⟩
    · exact List.mem_map.2 ⟨u, List.mem_append_right _ hu, e⟩
    · exact List.mem_map.2 ⟨u, hu, e⟩
  · intro k t n c h h2
    rcases goal_tables h with ⟨s, hs, u, hu, -, rfl⟩ | ⟨u, hu, -, rfl⟩
    · have h2 : goalCon cur drop s u n = some c := h2
      unfold goalCon at h2
      split at h2
      · rename_i y hy
        exact List.mem_flatMap.2 ⟨u, List.mem_append_right _ hu, List.mem_map.2
          ⟨y, List.mem_of_find?_eq_some hy, eq_of_beq (List.find?_some (p := fun c : Constraint => c.constraintName == n) hy)⟩⟩
      · split at h2
        · cases h2
        · rename_i y hy
          exact List.mem_flatMap.2 ⟨s, List.mem_append_left _ hs, List.mem_map.2
            ⟨y, List.mem_of_find?_eq_some hy, eq_of_beq (List.find?_some (p := fun c : Constraint => c.constraintName == n) hy)⟩⟩
    · exact List.mem_flatMap.2 ⟨u, hu, con_name h2⟩
  · intro k t n c h h2
    rcases goal_tables h with ⟨s, hs, u, hu, -, rfl⟩ | ⟨u, hu, -, rfl⟩
    · have h2 : EngineSpec.newer drop ((tblOf cur coll s).idx n) ((tblOf cur coll u).idx n) = some c := h2
      cases h3 : (tblOf cur coll u).idx n with
      | some y => exact List.mem_flatMap.2 ⟨u, List.mem_append_right _ hu, idx_name h3⟩
      | none =>
        cases h4 : (tblOf cur coll s).idx n with
        | some y => exact List.mem_flatMap.2 ⟨s, List.mem_append_left _ hs, idx_name h4⟩
        | none =>
          rw [h3, h4] at h2
          cases drop <;> cases h2
    · exact List.mem_flatMap.2 ⟨u, hu, idx_name h2⟩

/-! ## Numbers of columns -/

/-- The names of columns. -/
def colNames (src dest : Catalog) : List Str :=
  (liveTables src ++ liveTables dest).flatMap fun t => (liveColumns t).map (·.columnName)

def hasDefault (db : Db) (k : Key) (n : Str) : Bool :=
  (db.table k).any fun t => (t.col n).any fun x => x.default.isSome

theorem src_cols {k : Key} {t : Tbl} {n : Str} (h : (dbOf cur coll src).table k = some t)
    (h2 : (t.col n).isSome) : n ∈ colNames src dest := by
  obtain ⟨x, hx⟩ := Option.isSome_iff_exists.1 h2
  obtain ⟨u, hu, -, rfl⟩ := src_tables h
  exact List.mem_flatMap.2 ⟨u, List.mem_append_left _ hu, col_name hx⟩

theorem goal_cols {k : Key} {t : Tbl} {n : Str} (h : (goalDb cur coll drop src dest).table k = some t)
    (h2 : (t.col n).isSome) : n ∈ colNames src dest := by
  obtain ⟨x, hx⟩ := Option.isSome_iff_exists.1 h2
  rcases goal_tables h with ⟨s, hs, u, hu, -, rfl⟩ | ⟨u, hu, -, rfl⟩
  · have h2 : EngineSpec.newer drop ((tblOf cur coll s).col n) ((tblOf cur coll u).col n) = some x := hx
    cases h3 : (tblOf cur coll u).col n with
    | some y => exact List.mem_flatMap.2 ⟨u, List.mem_append_right _ hu, col_name h3⟩
    | none =>
      cases h4 : (tblOf cur coll s).col n with
      | some y => exact List.mem_flatMap.2 ⟨s, List.mem_append_left _ hs, col_name h4⟩
      | none =>
        rw [h3, h4] at h2
        cases drop <;> cases h2
  · exact List.mem_flatMap.2 ⟨u, hu, col_name hx⟩

/-- The conditions of `Findable`, for the names in the lists; the numbers of other columns are listed
too. -/
def FindableCheck (num : Key → Str → Nat) (others : List (Str × Nat)) (src dest : Catalog)
    (old new : Db) : Prop :=
  ∀ p ∈ commonTables src dest, ∀ q ∈ CatalogSpec.commonColumns p.1 p.2, q.1.columnDefault ≠ [] →
    q.1.columnDefault ≠ q.2.columnDefault →
    ∀ d ∈ colNames src dest, d ≠ q.1.columnName →
      (hasDefault old (p.1.tableSchema, p.1.tableName) d ||
        hasDefault new (p.1.tableSchema, p.1.tableName) d) = true →
      (q.1.columnName, num (p.1.tableSchema, p.1.tableName) d) ∉ others ∧
      ∀ k ∈ (PgSpec.namesOf src dest).keys, (hasCol old k q.1.columnName || hasCol new k q.1.columnName) = true →
        num k q.1.columnName ≠ num (p.1.tableSchema, p.1.tableName) d

set_option synthInstance.maxSize 2000 in
instance (num : Key → Str → Nat) (others : List (Str × Nat)) (src dest : Catalog) (old new : Db) :
    Decidable (FindableCheck num others src dest old new) := by
  unfold FindableCheck; infer_instance

theorem hasDefault_of {db : Db} {k : Key} {n : Str} (h : HasDefault db k n) :
    hasDefault db k n = true := by
  obtain ⟨t, x, h1, h2, h3⟩ := h
  unfold hasDefault
  rw [h1, Option.any_some, h2, Option.any_some, h3]

theorem hasCol_of {db : Db} {k : Key} {n : Str} (h : HasCol db k n) : hasCol db k n = true := by
  obtain ⟨t, h1, h2⟩ := h
  exact (hasCol_iff h1).2 h2

theorem findable_of {num : Key → Str → Nat} {others : List (Str × Nat)}
    (h : FindableCheck num others src dest (dbOf cur coll src) (goalDb cur coll drop src dest)) :
    Findable ⟨num, fun n i => (n, i) ∈ others⟩ src dest (dbOf cur coll src)
      (goalDb cur coll drop src dest) := by
  intro p hp q hq h1 h2 d h3 h4
  have hd : d ∈ colNames src dest := by
    rcases h4 with ⟨t, x, e1, e2, -⟩ | ⟨t, x, e1, e2, -⟩
    · exact src_cols e1 (by rw [e2]; rfl)
    · exact goal_cols e1 (by rw [e2]; rfl)
  obtain ⟨h5, h6⟩ := h p hp q hq h1 h2 d hd h3 (by
    rw [Bool.or_eq_true]
    exact h4.imp hasDefault_of hasDefault_of)
  refine ⟨h5, fun k hk => h6 k ?_ ?_⟩
  · rcases hk with ⟨t, e1, -⟩ | ⟨t, e1, -⟩
    · exact listed_src.keys k t e1
    · exact listed_goal.keys k t e1
  · rw [Bool.or_eq_true]
    exact hk.imp hasCol_of hasCol_of

end

end MsSpec
