import Verif.Lemmas.StructWrite
import Verif.Props.DiffAlter
import Verif.Props.DiffSqlite

/-!
# The same tables need no migration
-/

namespace Sqddl.Structs
open Go CatalogSpec StructSpec

theorem filterMap_eq_some_find {α K : Type} [BEq K] [LawfulBEq K] {k : α → K} {xs : List α} {x s : α}
    (h : (xs.find? fun y => k y == k x) = some s) : s ∈ xs ∧ k s = k x :=
  ⟨List.mem_of_find?_eq_some h, by simpa using List.find?_some h⟩

section
variable {cur coll : Str} {t t' : Table} (hs : SameTable cur coll t t')
include hs

theorem same_left {c : Column} (h : c ∈ t.columns) :
    ∃ c' ∈ t'.columns, SameColumn coll c c' := by
  obtain ⟨i, hi, rfl⟩ := List.mem_iff_getElem.1 h
  have hi' : i < t'.columns.length := hs.columnCount ▸ hi
  refine ⟨t'.columns[i], List.getElem_mem _, hs.columns (t.columns[i], t'.columns[i]) ?_⟩
  rw [List.mem_iff_getElem]
  exact ⟨i, by rw [List.length_zip]; omega, by simp⟩

theorem same_right {c' : Column} (h : c' ∈ t'.columns) :
    ∃ c ∈ t.columns, SameColumn coll c c' := by
  obtain ⟨i, hi, rfl⟩ := List.mem_iff_getElem.1 h
  have hi' : i < t.columns.length := hs.columnCount ▸ hi
  refine ⟨t.columns[i], List.getElem_mem _, hs.columns (t.columns[i], t'.columns[i]) ?_⟩
  rw [List.mem_iff_getElem]
  exact ⟨i, by rw [List.length_zip]; omega, by simp⟩

end

theorem sameColumn_notDifferent (d : Dialect) {coll : Str} {c c' : Column}
    (h : SameColumn coll c c') : columnsAreDifferent d coll c c' = false := by
  have hcol : collationOr coll c.collationName = collationOr coll c'.collationName := by
    rw [h.collation]
    unfold collationOr
    grind
  delta columnsAreDifferent
  rw [← hcol, h.type, h.default, h.notNull, h.identity]
  cases d <;> cases c.isNotNull <;> simp

/-- A pair of tables, one for the database and one for the struct, each in its catalog. -/
structure Pair (cat cat' : Catalog) (t t' : Table) : Prop where
  ok : Ok cat
  ok' : Ok cat'
  mem : t ∈ liveTables cat
  mem' : t' ∈ liveTables cat'
  same : SameTable cat.currentSchema cat.defaultCollation t t'
  columns : ∀ c ∈ t.columns, c.ignore = false
  constraints : ∀ k ∈ t.constraints, k.ignore = false
  indexes : ∀ x ∈ t.indexes, x.ignore = false
  onePkey : ∀ k ∈ t.constraints, ∀ l ∈ t.constraints, k.constraintType = PRIMARY_KEY →
    l.constraintType = PRIMARY_KEY → k = l

theorem mem_keysOf_iff {t : Table} {k : Constraint} :
    k ∈ keysOf t ↔ k ∈ t.constraints ∧ (isKey k = true ∨ isFkey k = true) := by
  simp [keysOf, isKeyOrRef, isKey, isFkey, or_assoc]

section
variable {cat cat' : Catalog} {t t' : Table} (h : Pair cat cat' t t')
include h

theorem Pair.surplusColumns : surplusColumns (newCatalogCache cat') t t' = [] := by
  rw [surplusColumns_eq h.ok' (inCatalog_live h.mem'), List.filter_eq_nil_iff]
  intro x hx
  have hx := (List.mem_filter.1 hx).1
  obtain ⟨c', hc', e⟩ := same_left h.same hx
  simp [CatalogSpec.hasColumn, liveColumns]
  exact ⟨c', hc', e.live, e.name⟩

theorem Pair.surplusIndexes : surplusIndexes (newCatalogCache cat') t t' = [] := by
  rw [surplusIndexes_eq h.ok' (inCatalog_live h.mem'), List.filter_eq_nil_iff]
  intro x hx
  have hx := (List.mem_filter.1 hx).1
  obtain ⟨c', hc', e⟩ := h.same.indexes _ hx
  simp [hasIndex, liveIndexes]
  exact ⟨c', hc', e.live, e.name⟩

theorem Pair.surplusKeys :
    ∀ k ∈ surplusConstraints (newCatalogCache cat') t t', isKey k = false ∧ isFkey k = false := by
  rw [surplusConstraints_eq h.ok' (inCatalog_live h.mem')]
  intro x hx
  obtain ⟨hx, hn⟩ := List.mem_filter.1 hx
  have hx := (List.mem_filter.1 hx).1
  rw [← Bool.not_eq_true, ← Bool.not_eq_true, ← not_or]
  intro hk
  obtain ⟨c', hc', e⟩ := h.same.keys x (mem_keysOf_iff.2 ⟨hx, hk⟩)
  simp [hasConstraint, liveConstraints] at hn
  exact hn c' hc' e.live e.name

theorem Pair.missingColumns : missingColumns (newCatalogCache cat) t t' = [] := by
  rw [missingColumns_eq h.ok (inCatalog_live h.mem), List.filter_eq_nil_iff]
  intro x hx
  have hx := (List.mem_filter.1 hx).1
  obtain ⟨c', hc', e⟩ := same_right h.same hx
  simp [CatalogSpec.hasColumn, liveColumns]
  exact ⟨c', hc', h.columns _ hc', e.name.symm⟩

theorem Pair.missingIndexes : missingIndexes (newCatalogCache cat) t t' = [] := by
  rw [missingIndexes_eq h.ok (inCatalog_live h.mem), List.filter_eq_nil_iff]
  intro x hx
  have hx := (List.mem_filter.1 hx).1
  obtain ⟨c', hc', e⟩ := h.same.noOtherIndexes _ hx
  simp [hasIndex, liveIndexes]
  exact ⟨c', hc', h.indexes _ hc', e.name.symm⟩

theorem Pair.missingConstraints : missingConstraints (newCatalogCache cat) t t' = [] := by
  rw [missingConstraints_eq h.ok (inCatalog_live h.mem), List.filter_eq_nil_iff]
  intro x hx
  have hx := (List.mem_filter.1 hx).1
  obtain ⟨c', hc', e⟩ := h.same.noOtherKeys _ hx
  have hc' := (mem_keysOf_iff.1 hc').1
  simp [hasConstraint, liveConstraints]
  exact ⟨c', hc', h.constraints _ hc', e.name.symm⟩

theorem Pair.commonColumns : ∀ p ∈ commonColumns (newCatalogCache cat) t t',
    SameColumn cat.defaultCollation p.1 p.2 := by
  intro p hp
  rw [commonColumns_eq h.ok (inCatalog_live h.mem)] at hp
  simp only [CatalogSpec.commonColumns, List.mem_filterMap, Option.map_eq_some_iff] at hp
  obtain ⟨x, hx, s, hs, rfl⟩ := hp
  have hs1 : s ∈ t.columns := (List.mem_filter.1 (List.mem_of_find?_eq_some hs)).1
  have hs2 : s.columnName = x.columnName := by simpa using List.find?_some hs
  obtain ⟨c, hc, e⟩ := same_right h.same (List.mem_filter.1 hx).1
  have := nodup_map_inj (liveTables_ok h.ok h.mem).columns hs1 hc (hs2.trans e.name)
  subst this
  exact e

theorem Pair.getConstraint {k s : Constraint} (hk : k ∈ t'.constraints)
    (hs : ((newCatalogCache cat).getConstraint t k.constraintName).toOption = some s) :
    SameKey cat.currentSchema s k := by
  obtain ⟨sc, hsc, ht⟩ := inCatalog_live h.mem
  obtain ⟨h1, h2, -⟩ := (getConstraint_iff h.ok hsc ht _ _).1 hs
  obtain ⟨k0, hk0, e⟩ := h.same.noOtherKeys _ hk
  have := nodup_map_inj (liveTables_ok h.ok h.mem).constraints h1 (mem_keysOf_iff.1 hk0).1
    (h2.trans e.name)
  subst this
  exact e

theorem Pair.commonConstraints : ∀ p ∈ commonConstraints (newCatalogCache cat) t t',
    SameKey cat.currentSchema p.1 p.2 := by
  intro p hp
  simp only [Sqddl.commonConstraints, List.mem_filterMap] at hp
  obtain ⟨x, hx, hp⟩ := hp
  split at hp
  · cases hp
  · obtain ⟨s, hs, rfl⟩ := Option.map_eq_some_iff.1 hp
    exact h.getConstraint hx hs

theorem Pair.changedColumns (d : Dialect) :
    changedColumns d cat.defaultCollation (newCatalogCache cat) t t' = [] := by
  rw [Sqddl.changedColumns, List.filter_eq_nil_iff]
  intro p hp
  rw [sameColumn_notDifferent d (h.commonColumns p hp)]
  simp

theorem Pair.alter {d : Dialect} (hd : Server d) (drop : Bool) :
    alterOf d (diffEnv cat cat' drop) t t' = [] := by
  have h2 := h.surplusIndexes
  have h3 : (surplusConstraints (newCatalogCache cat') t t').filter isKey = [] := by
    rw [List.filter_eq_nil_iff]; intro k hk; simp [(h.surplusKeys k hk).1]
  have h3' : (surplusConstraints (newCatalogCache cat') t t').filter isFkey = [] := by
    rw [List.filter_eq_nil_iff]; intro k hk; simp [(h.surplusKeys k hk).2]
  have h4 := h.missingColumns
  have h5 := h.missingIndexes
  have h6 := h.missingConstraints
  have h7 := h.changedColumns
  rcases hd with rfl | rfl | rfl
  · have hp : (Sqddl.commonConstraints (newCatalogCache cat) t t').filter pkeyChanged = [] := by
      rw [List.filter_eq_nil_iff]
      intro p hp
      simp [pkeyChanged, (h.commonConstraints p hp).columns]
    have ha : mysqlAddConstraints (diffEnv cat cat' drop) t t' = [] := by
      rw [mysqlAddConstraints, List.filter_eq_nil_iff]
      intro x hx hh
      rw [Bool.and_eq_true] at hh
      have hm : x ∉ Sqddl.missingConstraints (newCatalogCache cat) t t' := by
        rw [h6]; exact List.not_mem_nil
      cases hg : ((newCatalogCache cat).getConstraint t x.constraintName).toOption with
      | none => exact hm (List.mem_filter.2 ⟨hx, by rw [hg]; simp; simpa using hh.1⟩)
      | some s =>
        have hh2 := hh.2
        rw [show (diffEnv cat cat' drop).srcCache = newCatalogCache cat from rfl, hg] at hh2
        simp [pkeyChanged, (h.getConstraint hx hg).columns] at hh2
    simp only [alterOf, mysqlAlter, alterEvents, mysqlAlterTable, AlterTable.worthKeeping, ha]
    simp [diffEnv, h2, h3, h3', h4, h5, h6, h7, hp, whenDrop]
  · have hp : ((Sqddl.commonConstraints (newCatalogCache cat) t t').filter fun p =>
        p.1.isDeferrable != p.2.isDeferrable ||
        p.1.isInitiallyDeferred != p.2.isInitiallyDeferred) = [] := by
      rw [List.filter_eq_nil_iff]
      intro p hp
      simp [(h.commonConstraints p hp).deferrable, (h.commonConstraints p hp).initially]
    simp only [alterOf, pgAlter, alterEvents, pgAlterTable, AlterTable.worthKeeping]
    simp [diffEnv, h2, h3, h3', h4, h5, h6, h7, hp, whenDrop, pgReplacedPkey]
  · have hi : mssqlIdentityWarnings (diffEnv cat cat' drop) t t' = [] := by
      rw [mssqlIdentityWarnings, List.filter_eq_nil_iff]
      intro p hp
      have := (h.commonColumns p hp).identity
      simp [this]
    have hr : mssqlReplacedPkeyPos (diffEnv cat cat' drop) t t' = none := by
      simp only [mssqlReplacedPkeyPos, diffEnv]
      split
      · rename_i s x h1 h2
        obtain ⟨sc, hsc, ht⟩ := inCatalog_live h.mem
        obtain ⟨sc', hsc', ht'⟩ := inCatalog_live h.mem'
        obtain ⟨a1, a2, -⟩ := getPrimaryKey_mem h.ok hsc ht h1
        obtain ⟨b1, b2, -⟩ := getPrimaryKey_mem h.ok' hsc' ht' h2
        obtain ⟨k, hk, e⟩ := h.same.noOtherKeys _ b1
        have : s = k := h.onePkey _ a1 _ (mem_keysOf_iff.1 hk).1 a2 (e.type ▸ b2)
        simp [this, e.name]
      · rfl
    have hm : mssqlAlterColumns (diffEnv cat cat' drop) t t' = [] := h7 .sqlserver
    simp only [alterOf, mssqlAlter, alterEvents, mssqlAlterTable, AlterTable.worthKeeping, hi, hr,
      hm]
    simp [diffEnv, h2, h3, h3', h4, h5, h6, whenDrop]

end

section
variable {isFloat : Str → Bool} {cat cat' : Catalog} (hfit : Fits isFloat cat)
  (hs : SameTables cat cat')
include hs

theorem tables_left {t : Table} (ht : t ∈ tablesOf cat) :
    ∃ t' ∈ tablesOf cat', SameTable cat.currentSchema cat.defaultCollation t t' := by
  obtain ⟨i, hi, rfl⟩ := List.mem_iff_getElem.1 ht
  have hi' : i < (tablesOf cat').length := hs.count ▸ hi
  refine ⟨_, List.getElem_mem hi', hs.tables ((tablesOf cat)[i], (tablesOf cat')[i]) ?_⟩
  rw [List.mem_iff_getElem]
  exact ⟨i, by rw [List.length_zip]; omega, by simp⟩

theorem tables_right {t' : Table} (ht : t' ∈ tablesOf cat') :
    ∃ t ∈ tablesOf cat, SameTable cat.currentSchema cat.defaultCollation t t' := by
  obtain ⟨i, hi, rfl⟩ := List.mem_iff_getElem.1 ht
  have hi' : i < (tablesOf cat).length := hs.count ▸ hi
  refine ⟨_, List.getElem_mem hi', hs.tables ((tablesOf cat)[i], (tablesOf cat')[i]) ?_⟩
  rw [List.mem_iff_getElem]
  exact ⟨i, by rw [List.length_zip]; omega, by simp⟩

include hfit

theorem pair_of {t t' : Table} (ht : t ∈ tablesOf cat) (ht' : t' ∈ tablesOf cat')
    (h : SameTable cat.currentSchema cat.defaultCollation t t') : Pair cat cat' t t' := by
  obtain ⟨s, hsm, htm⟩ := List.mem_flatMap.1 ht
  obtain ⟨s', hsm', htm'⟩ := List.mem_flatMap.1 ht'
  have hf := hfit.tables s hsm t htm
  exact { ok := hfit.ok
          ok' := hs.ok
          mem := mem_liveTables.2 ⟨s, hsm, hfit.live s hsm, htm, hf.live⟩
          mem' := mem_liveTables.2 ⟨s', hsm', hs.live s' hsm', htm', h.live⟩
          same := h
          columns := fun c hc => (hf.columns c hc).live
          constraints := hf.constraintsLive
          indexes := fun x hx => (hf.indexes x hx).live
          onePkey := hf.onePkey }

/-- The migration from a database to the same tables, read from structs, is empty. -/
theorem sameTables_diff {d : Dialect} (hd : Server d) (drop : Bool)
    (hdrop : drop = true → ∀ s ∈ cat.schemas, s.tables ≠ []) :
    diffEvents d cat cat' drop = [] := by
  rw [diffEvents_walk hd, walk_eq hfit.ok hs.ok, List.append_eq_nil_iff]
  constructor
  · split
    · rename_i hdr
      refine flatMap_eq_nil' fun s hsm => ?_
      have hm : s.schemaName ∈ cat'.schemas.map (·.schemaName) := by
        rw [hs.schemas]
        refine List.mem_map_of_mem (List.mem_filter.2 ⟨hsm, ?_⟩)
        simpa using hdrop hdr s hsm
      obtain ⟨s', hs', e⟩ := List.mem_map.1 hm
      rw [dropSchemaEvents, if_neg (by simp [hfit.live s hsm])]
      have : ((diffEnv cat cat' drop).destCache.getSchema (diffEnv cat cat' drop).dest
          s.schemaName).toOption = some s' :=
        (getSchema_iff hs.ok _ _).2 ⟨hs', e, hs.live s' hs'⟩
      rw [this]; rfl
    · rfl
  · refine flatMap_eq_nil' fun s' hs' => ?_
    have hsm' := (List.mem_filter.1 hs').1
    have hm : s'.schemaName ∈ (cat.schemas.filter fun s => !s.tables.isEmpty).map (·.schemaName) :=
      hs.schemas ▸ List.mem_map_of_mem hsm'
    obtain ⟨s, hsm, e⟩ := List.mem_map.1 hm
    have hsm := (List.mem_filter.1 hsm).1
    rw [List.append_eq_nil_iff]
    constructor
    · have : ((newCatalogCache cat).getSchema cat s'.schemaName).toOption = some s :=
        (getSchema_iff hfit.ok _ _).2 ⟨hsm, e, hfit.live s hsm⟩
      rw [schemaStep, this]
      dsimp only
      split
      · refine flatMap_eq_nil' fun t ht => ?_
        obtain ⟨t', ht', est⟩ := tables_left hs (List.mem_flatMap.2 ⟨s, hsm, ht⟩)
        obtain ⟨s2, hs2, ht2⟩ := List.mem_flatMap.1 ht'
        have e2 : s2 = s' := by
          refine nodup_map_inj hs.ok.schemas hs2 hsm' ?_
          show s2.schemaName = s'.schemaName
          rw [← (hs.ok.ok s2 hs2).schemaName t' ht2, est.schema,
            (hfit.ok.ok s hsm).schemaName t ht, e]
        subst e2
        rw [dropTableEvents, if_neg (by simp [(hfit.tables s hsm t ht).live])]
        have : ((diffEnv cat cat' drop).destCache.getTable s2 t.tableName).toOption = some t' :=
          (getTable_iff hs.ok hs2 _ _).2 ⟨ht2, est.name, est.live⟩
        rw [this]; rfl
      · rfl
    · refine flatMap_eq_nil' fun t' ht' => ?_
      have ht1 : t' ∈ tablesOf cat' := List.mem_flatMap.2 ⟨s', hsm', (List.mem_filter.1 ht').1⟩
      obtain ⟨t, ht, est⟩ := tables_right hs ht1
      have hp := pair_of hfit hs ht ht1 est
      have := find?_self (liveTables_nodup hfit.ok) hp.mem
      rw [tableStep, findTable_key, est.schema, est.name, show (liveTables cat).find? (fun x =>
        (x.tableSchema, x.tableName) == (t.tableSchema, t.tableName)) = some t from this]
      exact hp.alter hd drop

/-! ## SQLite -/

omit hs hfit in
theorem named_self {t : Table} (hv : isVirtualTable t = false)
    (h : ∀ k ∈ t.constraints, sqliteNameConstraint k = k) : nameTable t = t := by
  rw [nameTable, hv]
  have : t.constraints.map sqliteNameConstraint = t.constraints := by
    conv => rhs; rw [← List.map_id t.constraints]
    exact List.map_congr_left h
  rw [this]; rfl

omit hs hfit in
theorem nameConstraint_self {k : Constraint} {table : Str} (ht : k.tableName = table)
    (hn : isKeyOrRef k = true → k.constraintName = nameFor (suffixOf k.constraintType) table k.columns) :
    sqliteNameConstraint k = k := by
  rw [sqliteNameConstraint]
  split
  · rename_i h
    have hk : isKeyOrRef k = true := by simpa [isKeyOrRef, or_assoc, or_comm (a := k.constraintType = UNIQUE)] using h
    have : generateName (nameTypeOf k.constraintType) k.tableName k.columns = k.constraintName := by
      rw [generateName_eq, hn hk, ht]
      congr 1
      rcases h with h | h | h <;> rw [h] <;> decide
    rw [this]
  · rfl

omit hs hfit in
theorem catalog_named_self {c : Catalog}
    (h : ∀ s ∈ c.schemas, ∀ t ∈ s.tables, nameTable t = t) : sqliteNameConstraints c = c := by
  have : (sqliteNameConstraints c).schemas = c.schemas := by
    rw [sqliteNameConstraints_schemas]
    conv => rhs; rw [← List.map_id c.schemas]
    refine List.map_congr_left fun s hs => ?_
    have : s.tables.map nameTable = s.tables := by
      conv => rhs; rw [← List.map_id s.tables]
      exact List.map_congr_left (h s hs)
    rw [this]; rfl
  calc sqliteNameConstraints c = { c with schemas := (sqliteNameConstraints c).schemas } := rfl
    _ = c := by rw [this]

/-- The same for SQLite, which has one schema. -/
theorem sameTables_diff_sqlite (hd : dialectOf cat.dialect = .sqlite) (drop : Bool) {s : Schema}
    (hone : cat.schemas = [s])
    (hown : ∀ t ∈ s.tables, ∀ k ∈ keysOf t, k.tableName = t.tableName)
    (hdrop : drop = true → ∀ t ∈ s.tables, ∀ k ∈ t.constraints, isKeyOrRef k = true) :
    diffEvents .sqlite cat cat' drop = [] := by
  have hsm : s ∈ cat.schemas := by rw [hone]; simp
  have hnv : ∀ t ∈ s.tables, isVirtualTable t = false := by
    intro t ht
    have := (hfit.tables s hsm t ht).notVirtual hd
    simp [isVirtualTable, this.1, this.2]
  have hname : sqliteNameConstraints cat = cat := by
    refine catalog_named_self fun s2 hs2 t ht => ?_
    rw [hone, List.mem_singleton] at hs2
    subst hs2
    refine named_self (hnv t ht) fun k hk => ?_
    by_cases hkey : isKeyOrRef k = true
    · have hk' : k ∈ keysOf t := List.mem_filter.2 ⟨hk, hkey⟩
      refine nameConstraint_self (hown t ht k hk') fun _ => ?_
      have := ((hfit.tables s2 hsm t ht).keys k hk').name
      rw [if_neg (by rw [hd]; simp)] at this
      exact this
    · rw [sqliteNameConstraint, if_neg]
      simpa [isKeyOrRef, or_assoc, or_comm (a := k.constraintType = UNIQUE)] using hkey
  have hall : ∀ t' ∈ tablesOf cat', isVirtualTable t' = false ∧ nameTable t' = t' := by
    intro t' ht'
    obtain ⟨t, ht, est⟩ := tables_right hs ht'
    have hv : isVirtualTable t' = false := by
      simp only [isVirtualTable, est.ordinary.1, est.ordinary.2]; decide
    refine ⟨hv, named_self hv fun k' hk' => ?_⟩
    obtain ⟨k, hk, ek⟩ := est.noOtherKeys k' hk'
    obtain ⟨s2, hs2, ht2⟩ := List.mem_flatMap.1 ht
    have hn := ((hfit.tables s2 hs2 t ht2).keys k hk).name
    rw [if_neg (by rw [hd]; simp)] at hn
    refine nameConstraint_self (est.owner k' hk').2 fun _ => ?_
    rw [ek.name, ek.type, ek.columns]; exact hn
  have hname' : sqliteNameConstraints cat' = cat' :=
    catalog_named_self fun s2 hs2 t ht => (hall t (List.mem_flatMap.2 ⟨s2, hs2, ht⟩)).2
  show sqliteEvents cat cat' drop = []
  cases hc' : cat'.schemas with
  | nil =>
    have := hs.schemas
    rw [hc', hone] at this
    have he : s.tables = [] := by
      rw [List.filter_cons] at this
      split at this
      · cases this
      · rename_i h; simpa using h
    simp only [sqliteEvents, hone, hc', he]
    simp
  | cons s' ss =>
    have hsm' : s' ∈ cat'.schemas := by rw [hc']; simp
    have hsc := hs.schemas
    rw [hc', hone, List.filter_cons] at hsc
    have hss : ss = [] ∧ s'.schemaName = s.schemaName := by
      split at hsc
      · simp at hsc; exact ⟨hsc.2, hsc.1⟩
      · simp at hsc
    simp only [sqliteEvents, hone, hc', hname, hname']
    rw [sqliteSchemaEvents_eq hfit.ok hs.ok hsm hsm', List.append_eq_nil_iff]
    have htab : tablesOf cat = s.tables := by simp [tablesOf, hone]
    have htab' : tablesOf cat' = s'.tables := by simp [tablesOf, hc', hss.1]
    constructor
    · split
      · rw [List.map_eq_nil_iff, List.filter_eq_nil_iff]
        intro t ht
        have ht := (List.mem_filter.1 ht).1
        obtain ⟨t', ht', est⟩ := tables_left hs (htab ▸ ht)
        simp [schemaHas]
        exact ⟨t', htab' ▸ ht', est.live, est.name⟩
      · rfl
    · refine flatMap_eq_nil' fun t' ht' => ?_
      have ht' : t' ∈ tablesOf cat' := htab' ▸ (List.mem_filter.1 ht').1
      obtain ⟨t, ht, est⟩ := tables_right hs ht'
      have hp := pair_of hfit hs ht ht' est
      have hts : t ∈ s.tables := htab ▸ ht
      have hfind : (s.tables.filter fun x => !x.ignore).find? (fun x => x.tableName == t'.tableName) =
          some t := by
        rw [est.name]
        refine find?_self (k := fun x : Table => x.tableName) ?_ (List.mem_filter.2 ⟨hts, ?_⟩)
        · exact (hfit.ok.ok s hsm).tables.sublist (List.filter_sublist.map _)
        · simp [(hfit.tables s hsm t hts).live]
      rw [hfind]
      have h1 := hp.surplusIndexes
      have h2 := hp.missingColumns
      have h3 := hp.missingIndexes
      have h4 := hp.missingConstraints
      have h5 : Sqddl.changedColumns .sqlite [] (newCatalogCache cat) t t' = [] := by
        have := hp.changedColumns .sqlite
        exact this
      have h6 : drop = true → Sqddl.surplusConstraints (newCatalogCache cat') t t' = [] := by
        intro hdr
        rw [List.eq_nil_iff_forall_not_mem]
        intro k hk
        have hm := (List.mem_filter.1 hk).1
        have hkey := hdrop hdr t hts k hm
        have := hp.surplusKeys k hk
        have h' := (mem_keysOf_iff.1 (List.mem_filter.2 ⟨hm, hkey⟩)).2
        rw [this.1, this.2] at h'
        simp at h'
      cases drop with
      | false => simp [sqliteAlterEvents, sqliteFullAlter, h2, h3]
      | true =>
        simp [sqliteAlterEvents, sqliteFullAlter, AlterTable.worthKeeping, h1, h2, h3, h4, h5, h6 rfl]

end

end Sqddl.Structs
