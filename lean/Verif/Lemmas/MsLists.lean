import Verif.Lemmas.MsColumns
import Verif.Lemmas.PgAlterTable

/-!
# The changes of a table that both versions of a SQL Server database have
-/

namespace MsSpec
open SqlSpec Sqddl DdlText DdlSpec EngineSpec Sqddl.Sqlserver
open MsText (Act Differs OneDiffers)
open PgSpec (gone lostCols newCols newKeys lostIdxs newIdxs primary_isKey)
open CatalogSpec (keyConstraint foreignKey liveColumns liveConstraints liveIndexes hasColumn hasIndex
  hasConstraint commonTables TableOk liveTables)

/-! ## Kinds of constraints -/

theorem kind_primary {d : Dialect} {cur : Str} {c : Constraint} {cs : List Str} :
    kindOf d cur c = .primary cs ↔ PgSpec.primaryKey c = true ∧ c.columns = cs := by
  unfold kindOf PgSpec.primaryKey
  simp only [beq_iff_eq]
  by_cases h : c.constraintType = b!"PRIMARY KEY"
  · rw [if_pos h]; simp [h]
  · rw [if_neg h]
    constructor
    · intro h2
      repeat' split at h2
      all_goals cases h2
    · exact fun h2 => absurd h2.1 h

theorem kind_key {d : Dialect} {cur : Str} {c : Constraint} {cs : List Str}
    (h : kindOf d cur c = .primary cs ∨ kindOf d cur c = .unique cs) :
    keyConstraint c = true ∧ c.columns = cs := by
  rcases h with h | h
  · obtain ⟨h1, h2⟩ := kind_primary.1 h
    exact ⟨primary_isKey h1, h2⟩
  · unfold kindOf at h
    by_cases h1 : c.constraintType = b!"PRIMARY KEY"
    · rw [if_pos h1] at h; cases h
    · rw [if_neg h1] at h
      by_cases h2 : c.constraintType = b!"UNIQUE"
      · rw [if_pos h2] at h
        cases h
        refine ⟨?_, rfl⟩
        unfold keyConstraint
        rw [h2]; decide
      · rw [if_neg h2] at h
        repeat' split at h
        all_goals cases h

theorem conOf_name {d : Dialect} (hd : d ≠ .mysql) {cur : Str} {c : Constraint} (h : c.constraintName ≠ []) :
    (conOf d cur c).name = some c.constraintName := by
  unfold conOf
  dsimp only
  rw [if_neg (by rintro (h1 | h1); exact h h1; exact hd h1.1)]

theorem primaryKey_iff {c : Constraint} : PgSpec.primaryKey c = true ↔ c.constraintType = PRIMARY_KEY := by
  unfold PgSpec.primaryKey
  rw [beq_iff_eq]; rfl

/-! ## Lists of changes -/

/-- The columns that are changed. -/
def changed (coll : Str) (s t : Table) : List (Column × Column) :=
  (CatalogSpec.commonColumns s t).filter fun p => columnsAreDifferent .sqlserver coll p.1 p.2

/-- One of the columns is changed. -/
def Hit (coll : Str) (s t : Table) (cols : List Str) : Prop :=
  ∃ q ∈ changed coll s t, q.1.columnName ∈ cols

theorem changed_differs {coll : Str} {s t : Table} {q : Column × Column} (h : q ∈ changed coll s t) :
    q ∈ CatalogSpec.commonColumns s t ∧ Differs q.1 q.2 :=
  ⟨(List.mem_filter.1 h).1, columns_differ (List.mem_filter.1 h).2⟩

theorem Hit.involved {coll : Str} {s t : Table} {cols : List Str} (h : Hit coll s t cols) :
    Involved s t cols := by
  obtain ⟨q, h1, h2⟩ := h
  exact ⟨q, (changed_differs h1).1, (changed_differs h1).2, h2⟩

/-- What is known about two versions of a table. -/
structure PairOk (cur coll : Str) (drop : Bool) (s t : Table) : Prop where
  pair : TablePair cur coll drop s t
  src : TableOk s
  dest : TableOk t
  srcPrimary : ∀ x ∈ s.constraints, ∀ y ∈ s.constraints, PgSpec.primaryKey x = true →
    PgSpec.primaryKey y = true → x = y
  destPrimary : ∀ x ∈ t.constraints, ∀ y ∈ t.constraints, PgSpec.primaryKey x = true →
    PgSpec.primaryKey y = true → x = y
  srcNotNull : ∀ x ∈ liveConstraints s, PgSpec.primaryKey x = true →
    ∀ y ∈ liveColumns s, y.columnName ∈ x.columns → y.isNotNull = true ∧ y.generatedExpr = []
  destNotNull : ∀ x ∈ liveConstraints t, PgSpec.primaryKey x = true →
    ∀ y ∈ liveColumns t, y.columnName ∈ x.columns → y.isNotNull = true ∧ y.generatedExpr = []
  keyColumns : ∀ x ∈ liveConstraints t, PgSpec.primaryKey x = true → ∀ n ∈ x.columns,
    hasColumn t n = true
  destTypes : ∀ x ∈ liveConstraints t, x.constraintType ∈
    [b!"PRIMARY KEY", b!"UNIQUE", b!"FOREIGN KEY", b!"CHECK"]
  srcTypes : ∀ x ∈ liveConstraints s, x.constraintType ∈
    [b!"PRIMARY KEY", b!"UNIQUE", b!"FOREIGN KEY", b!"CHECK"]
  identity : ∀ y ∈ liveColumns t, ∀ z ∈ liveColumns t, y.columnIdentity ≠ [] →
    z.columnIdentity ≠ [] → y.columnName = z.columnName
  same : t.tableSchema = s.tableSchema ∧ t.tableName = s.tableName
  schema : t.tableSchema ≠ []
  srcIndexes : ∀ x ∈ s.indexes, x.tableSchema = s.tableSchema ∧ x.tableName = s.tableName
  destIndexes : ∀ x ∈ t.indexes, x.tableSchema = t.tableSchema ∧ x.tableName = t.tableName

/-- The changes of a table, in terms of the two tables. -/
structure Changes (cur coll : Str) (drop : Bool) (s t : Table) (a : AlterTable)
    (DK RK : List Constraint) (RI : List Index) : Prop where
  destTable : a.destTable = t
  dropIndexes : a.dropIndexes = lostIdxs drop s t ++ RI
  createIndexes : a.createIndexes = newIdxs s t ++ RI
  dropConstraints : a.dropConstraints = DK ++ RK
  addConstraints : a.addConstraints = newKeys s t ++ RK
  dropColumns : a.dropColumns = lostCols drop s t
  addColumns : a.addColumns = newCols s t
  alterColumns : a.alterColumns = changed coll s t
  dk : ∀ x, x ∈ DK ↔ x ∈ liveConstraints s ∧ keyConstraint x = true ∧
    goalCon cur drop s t x.constraintName = none
  rk : ∀ x, x ∈ RK ↔ x ∈ liveConstraints s ∧ keyConstraint x = true ∧
    goalCon cur drop s t x.constraintName ≠ none ∧ Hit coll s t x.columns
  ri : ∀ x, x ∈ RI ↔ x ∈ liveIndexes s ∧ ¬ (drop = true ∧ hasIndex t x.indexName = false) ∧
    Hit coll s t x.columns
  dkNodup : DK.Nodup
  rkNodup : RK.Nodup
  riNodup : RI.Nodup

section
variable {cur coll : Str} {drop : Bool} {s t : Table} (h : PairOk cur coll drop s t)
include h

theorem find_src {x : Constraint} (hx : x ∈ liveConstraints s) :
    (liveConstraints s).find? (fun c => c.constraintName == x.constraintName) = some x :=
  find?_self (k := fun c : Constraint => c.constraintName) (nodup_constraints h.src) hx

theorem find_dest {x : Constraint} (hx : x ∈ liveConstraints t) :
    (liveConstraints t).find? (fun c => c.constraintName == x.constraintName) = some x :=
  find?_self (k := fun c : Constraint => c.constraintName) (nodup_constraints h.dest) hx

theorem live_same {x y : Constraint} (hx : x ∈ liveConstraints s) (hy : y ∈ liveConstraints s)
    (h1 : PgSpec.primaryKey x = true) (h2 : PgSpec.primaryKey y = true) : x = y :=
  h.srcPrimary x (List.mem_filter.1 hx).1 y (List.mem_filter.1 hy).1 h1 h2

theorem live_same' {x y : Constraint} (hx : x ∈ liveConstraints t) (hy : y ∈ liveConstraints t)
    (h1 : PgSpec.primaryKey x = true) (h2 : PgSpec.primaryKey y = true) : x = y :=
  h.destPrimary x (List.mem_filter.1 hx).1 y (List.mem_filter.1 hy).1 h1 h2

theorem same_con {n : Str} {x y : Constraint}
    (h1 : (liveConstraints s).find? (fun c => c.constraintName == n) = some x)
    (h2 : (liveConstraints t).find? (fun c => c.constraintName == n) = some y) :
    conOf .sqlserver cur x = conOf .sqlserver cur y :=
  h.pair.constraints (x, y) ((mem_commonConstraints_iff h.dest).2 ⟨n, h1, h2⟩)

theorem same_kind {n : Str} {x y : Constraint}
    (h1 : (liveConstraints s).find? (fun c => c.constraintName == n) = some x)
    (h2 : (liveConstraints t).find? (fun c => c.constraintName == n) = some y) :
    kindOf .sqlserver cur x = kindOf .sqlserver cur y :=
  congrArg (fun c : Con => c.kind) (same_con h h1 h2)

theorem same_primary {n : Str} {x y : Constraint}
    (h1 : (liveConstraints s).find? (fun c => c.constraintName == n) = some x)
    (h2 : (liveConstraints t).find? (fun c => c.constraintName == n) = some y) :
    PgSpec.primaryKey x = PgSpec.primaryKey y ∧ (PgSpec.primaryKey x = true → x.columns = y.columns) := by
  have hk := same_kind h h1 h2
  cases hx : PgSpec.primaryKey x with
  | true =>
    have e := kind_primary (d := .sqlserver) (cur := cur).2 ⟨hx, rfl⟩
    rw [hk] at e
    obtain ⟨e1, e2⟩ := kind_primary.1 e
    exact ⟨e1.symm, fun _ => e2.symm⟩
  | false =>
    cases hy : PgSpec.primaryKey y with
    | false => exact ⟨rfl, by simp⟩
    | true =>
      have e := kind_primary (d := .sqlserver) (cur := cur).2 ⟨hy, rfl⟩
      rw [← hk] at e
      rw [(kind_primary.1 e).1] at hx
      cases hx

/-- What becomes of a constraint of the first version. -/
theorem goalCon_src {n : Str} {x : Constraint}
    (hx : (liveConstraints s).find? (fun c => c.constraintName == n) = some x) :
    (goalCon cur drop s t n = some (conOf .sqlserver cur x) ∨ goalCon cur drop s t n = none) ∧
    (goalCon cur drop s t n = none ↔ hasConstraint t n = false ∧
      (drop = true ∨ PgSpec.primaryKey x = true ∧ (liveConstraints t).any PgSpec.primaryKey = true)) := by
  rw [hasConstraint_find]
  unfold goalCon
  rw [hx]
  cases hy : (liveConstraints t).find? fun c => c.constraintName == n with
  | some y => simp [same_con h hx hy]
  | none =>
    dsimp only
    split
    · rename_i h1
      simpa using h1
    · rename_i h1
      simpa using h1

omit h in
theorem goalCon_dest {n : Str} {y : Constraint}
    (hy : (liveConstraints t).find? (fun c => c.constraintName == n) = some y) :
    goalCon cur drop s t n = some (conOf .sqlserver cur y) := by
  unfold goalCon
  rw [hy]

end

/-! ## The model -/

section
variable {src dest : Catalog} (hsrc : CatalogSpec.Ok src) (hdest : CatalogSpec.Ok dest)
  {drop : Bool} {p : Table × Table} (hp : p ∈ commonTables src dest)
  {cur : Str} (h : PairOk cur src.defaultCollation drop p.1 p.2)
include hsrc hdest hp h

theorem replaced_iff {k : Nat} {x : Constraint} (hk : p.1.constraints[k]? = some x) :
    mssqlReplacedPkeyPos (diffEnv src dest drop) p.1 p.2 = some k ↔
      drop = false ∧ x ∈ liveConstraints p.1 ∧ PgSpec.primaryKey x = true ∧
      hasConstraint p.2 x.constraintName = false ∧ (liveConstraints p.2).any PgSpec.primaryKey = true := by
  obtain ⟨sc, hsc, ht⟩ := inCatalog_live (mem_commonTables hp).1
  obtain ⟨dc, hdc, hdt⟩ := inCatalog_live (mem_commonTables hp).2.1
  have ex : (diffEnv src dest drop).dropObjects = drop := rfl
  unfold mssqlReplacedPkeyPos
  rw [ex]
  show (match ((newCatalogCache src).getPrimaryKey p.1).toOption,
      ((newCatalogCache dest).getPrimaryKey p.2).toOption with
    | some s, some t => if (!drop && decide (s.constraintName ≠ t.constraintName)) = true then
        (newCatalogCache src).pkeys.get (p.1.tableSchema, p.1.tableName) else none
    | _, _ => none) = some k ↔ _
  have hget : ∀ x', ((newCatalogCache src).getPrimaryKey p.1).toOption = some x' →
      ∃ i, (newCatalogCache src).pkeys.get (p.1.tableSchema, p.1.tableName) = some i ∧
        p.1.constraints[i]? = some x' := by
    intro x' hx'
    rw [CatalogCache.getPrimaryKey] at hx'
    cases hk : (newCatalogCache src).pkeys.get (p.1.tableSchema, p.1.tableName) with
    | none => rw [hk] at hx'; cases hx'
    | some i =>
      refine ⟨i, rfl, ?_⟩
      rw [hk] at hx'
      simp only [getAt] at hx'
      split at hx'
      · cases hx'
      · rename_i y hy
        split at hx'
        · cases hx'
        · rw [hy]
          simpa [Got.toOption] using hx'
  constructor
  · intro h1
    split at h1
    · rename_i x' y hs hd
      split at h1
      · rename_i hne
        simp only [Bool.and_eq_true, Bool.not_eq_true', decide_eq_true_eq] at hne
        obtain ⟨i, hi, hc⟩ := hget x' hs
        rw [h1] at hi
        cases hi
        rw [hk] at hc
        cases hc
        obtain ⟨m1, m2, m3⟩ := getPrimaryKey_mem hsrc hsc ht hs
        obtain ⟨n1, n2, n3⟩ := getPrimaryKey_mem hdest hdc hdt hd
        have hx : x ∈ liveConstraints p.1 := List.mem_filter.2 ⟨m1, by simp [m3]⟩
        have hy : y ∈ liveConstraints p.2 := List.mem_filter.2 ⟨n1, by simp [n3]⟩
        refine ⟨hne.1, hx, primaryKey_iff.2 m2, ?_, List.any_eq_true.2 ⟨y, hy, primaryKey_iff.2 n2⟩⟩
        rw [hasConstraint_find]
        cases hz : (liveConstraints p.2).find? fun c => c.constraintName == x.constraintName with
        | none => rfl
        | some z =>
          exfalso
          have e := (same_primary h (find_src h hx) hz).1
          rw [primaryKey_iff.2 m2] at e
          have := live_same' h (find_some hz).1 hy e.symm (primaryKey_iff.2 n2)
          subst this
          exact hne.2 (find_some hz).2.symm
      · cases h1
    · cases h1
  · rintro ⟨h1, h2, h3, h4, h5⟩
    obtain ⟨y, hy, hyp⟩ := List.any_eq_true.1 h5
    have e1 : ((newCatalogCache src).getPrimaryKey p.1).toOption = some x :=
      getPrimaryKey_eq hsrc hsc ht (List.mem_filter.1 h2).1 (primaryKey_iff.1 h3)
        (by simpa using (List.mem_filter.1 h2).2)
        fun z hz hzp => h.srcPrimary z hz x (List.mem_filter.1 h2).1 (primaryKey_iff.2 hzp) h3
    have e2 : ((newCatalogCache dest).getPrimaryKey p.2).toOption = some y :=
      getPrimaryKey_eq hdest hdc hdt (List.mem_filter.1 hy).1 (primaryKey_iff.1 hyp)
        (by simpa using (List.mem_filter.1 hy).2)
        fun z hz hzp => h.destPrimary z hz y (List.mem_filter.1 hy).1 (primaryKey_iff.2 hzp) hyp
    have hne : x.constraintName ≠ y.constraintName := by
      intro e
      rw [hasConstraint_find, e, find_dest h hy] at h4
      cases h4
    rw [e1, e2]
    dsimp only
    rw [if_pos (by simp [h1, hne])]
    obtain ⟨i, hi, hc⟩ := hget x e1
    rw [hi]
    congr 1
    obtain ⟨a1, a2⟩ := List.getElem?_eq_some_iff.1 hc
    exact (List.getElem?_inj a1 (nodup_of_map h.src.constraints)).1 (hc.trans hk.symm)

/-- A constraint counts as dropped if it is not in the goal. -/
theorem dropped_iff {k : Nat} {x : Constraint} (hk : p.1.constraints[k]? = some x)
    (hx : x ∈ liveConstraints p.1) :
    mssqlDroppedConstraint (diffEnv src dest drop) p.1 p.2 x k = true ↔
      goalCon cur drop p.1 p.2 x.constraintName = none := by
  obtain ⟨dc, hdc, hdt⟩ := inCatalog_live (mem_commonTables hp).2.1
  have hi : x.ignore = false := by simpa using (List.mem_filter.1 hx).2
  have e1 : ((newCatalogCache dest).getConstraint p.2 x.constraintName).toOption.isNone =
      !hasConstraint p.2 x.constraintName := by
    rw [getConstraint_find hdest hdc hdt, hasConstraint_find]
    cases (liveConstraints p.2).find? fun c => c.constraintName == x.constraintName <;> rfl
  unfold mssqlDroppedConstraint
  show (drop && (!x.ignore && ((newCatalogCache dest).getConstraint p.2 x.constraintName).toOption.isNone) ||
    mssqlReplacedPkeyPos (diffEnv src dest drop) p.1 p.2 == some k) = true ↔ _
  rw [e1, hi, (goalCon_src h (find_src h hx)).2, Bool.or_eq_true, beq_iff_eq,
    replaced_iff hsrc hdest hp h hk]
  cases drop <;> simp [hx] <;> grind

theorem mem_constraintDeps' {col : Str} {x : Constraint} :
    x ∈ mssqlConstraintDeps (diffEnv src dest drop) p.1 p.2 col ↔ x ∈ liveConstraints p.1 ∧
      col ∈ x.columns ∧ goalCon cur drop p.1 p.2 x.constraintName ≠ none := by
  unfold mssqlConstraintDeps
  rw [List.mem_map]
  constructor
  · rintro ⟨q, hq, rfl⟩
    obtain ⟨hq, hd⟩ := List.mem_filter.1 hq
    obtain ⟨r, hr, hq⟩ := List.mem_flatMap.1 hq
    split at hq
    · cases hq
    · rename_i hi
      obtain ⟨y, hy, rfl⟩ := List.mem_map.1 hq
      obtain ⟨hy2, hye⟩ := List.mem_filter.1 hy
      have hk : p.1.constraints[r.2]? = some r.1 := List.mem_zipIdx_iff_getElem?.1 hr
      have hx : r.1 ∈ liveConstraints p.1 :=
        List.mem_filter.2 ⟨List.mem_of_getElem? hk, by simpa using hi⟩
      have : y = col := by simpa using hye
      subst this
      refine ⟨hx, hy2, fun hg => ?_⟩
      rw [(dropped_iff hsrc hdest hp h hk hx).2 hg] at hd
      cases hd
  · rintro ⟨h1, h2, h3⟩
    obtain ⟨k, hk⟩ := List.mem_iff_getElem?.1 (List.mem_filter.1 h1).1
    refine ⟨(x, k), List.mem_filter.2 ⟨List.mem_flatMap.2 ⟨(x, k), List.mem_zipIdx_iff_getElem?.2 hk, ?_⟩, ?_⟩, rfl⟩
    · have hi : x.ignore = false := by simpa using (List.mem_filter.1 h1).2
      rw [if_neg (by rw [hi]; simp)]
      exact List.mem_map.2 ⟨col, List.mem_filter.2 ⟨h2, by simp⟩, rfl⟩
    · rw [Bool.not_eq_true', Bool.eq_false_iff]
      exact fun hd => h3 ((dropped_iff hsrc hdest hp h hk h1).1 hd)

omit h in
theorem mem_indexDeps {col : Str} {x : Index} :
    x ∈ mssqlIndexDeps (diffEnv src dest drop) p.1 p.2 col ↔ x ∈ liveIndexes p.1 ∧
      col ∈ x.columns ∧ ¬ (drop = true ∧ hasIndex p.2 x.indexName = false) := by
  obtain ⟨dc, hdc, hdt⟩ := inCatalog_live (mem_commonTables hp).2.1
  unfold mssqlIndexDeps
  rw [List.mem_filter, List.mem_flatMap]
  have e1 : ∀ y : Index, y.ignore = false →
      (mssqlDroppedIndex (diffEnv src dest drop) p.2 y = true ↔
        drop = true ∧ hasIndex p.2 y.indexName = false) := by
    intro y hy
    have e1 : ((newCatalogCache dest).getIndex p.2 y.indexName).toOption.isNone =
        !hasIndex p.2 y.indexName := by
      rw [getIndex_find hdest hdc hdt, hasIndex_find]
      cases (liveIndexes p.2).find? fun c => c.indexName == y.indexName <;> rfl
    unfold mssqlDroppedIndex
    show (drop && (!y.ignore && ((newCatalogCache dest).getIndex p.2 y.indexName).toOption.isNone)) = true ↔ _
    rw [e1, hy]
    simp
  constructor
  · rintro ⟨⟨y, hy, hx⟩, hd⟩
    split at hx
    · cases hx
    · rename_i hi
      obtain ⟨z, hz, rfl⟩ := List.mem_map.1 hx
      obtain ⟨hz2, hze⟩ := List.mem_filter.1 hz
      have : z = col := by simpa using hze
      subst this
      refine ⟨List.mem_filter.2 ⟨hy, by simpa using hi⟩, hz2, fun hg => ?_⟩
      rw [(e1 y (by simpa using hi)).2 hg] at hd
      cases hd
  · rintro ⟨h1, h2, h3⟩
    have hi : x.ignore = false := by simpa using (List.mem_filter.1 h1).2
    refine ⟨⟨x, (List.mem_filter.1 h1).1, ?_⟩, ?_⟩
    · rw [if_neg (by rw [hi]; simp)]
      exact List.mem_map.2 ⟨col, List.mem_filter.2 ⟨h2, by simp⟩, rfl⟩
    · rw [Bool.not_eq_true', Bool.eq_false_iff]
      exact fun hd => h3 ((e1 x hi).1 hd)

omit hdest h in
theorem alterColumns_eq : mssqlAlterColumns (diffEnv src dest drop) p.1 p.2 =
    changed src.defaultCollation p.1 p.2 := by
  unfold mssqlAlterColumns changedColumns
  rw [show (diffEnv src dest drop).srcCache = newCatalogCache src from rfl,
    commonColumns_eq hsrc (inCatalog_live (mem_commonTables hp).1)]
  rfl

omit hsrc hdest hp in
theorem changed_nodup : ((changed src.defaultCollation p.1 p.2).map fun q => q.1.columnName).Nodup := by
  have h1 := nodup_commonColumns (s := p.1) h.dest
    fun q => columnsAreDifferent .sqlserver src.defaultCollation q.1 q.2
  have e : (changed src.defaultCollation p.1 p.2).map (fun q => q.1.columnName) =
      (changed src.defaultCollation p.1 p.2).map fun q => q.2.columnName := by
    refine List.map_congr_left fun q hq => ?_
    exact (h.pair.columns q (changed_differs hq).1).name
  rw [e]
  exact h1

omit hsrc hdest hp h in
/-- A list for each column, in which nothing is twice. -/
theorem deps_nodup {α : Type} {cs : List Str} (hn : cs.Nodup) (f : Str → List α)
    (h0 : ∀ c ∈ cs, (f c).Nodup)
    (h2 : ∀ c ∈ cs, ∀ d ∈ cs, ∀ x ∈ f c, x ∈ f d → c = d) : (cs.flatMap f).Nodup := by
  unfold List.Nodup
  rw [List.pairwise_flatMap]
  refine ⟨h0, List.Pairwise.imp_of_mem ?_ hn⟩
  rintro c d hc hd hne x hx y hy rfl
  exact hne (h2 c hc d hd x hx hy)

omit hsrc hdest hp in
theorem constraintDeps_nodup {col : Str} (h1 : ∀ x ∈ liveConstraints p.1, keyConstraint x = true →
      x.columns.Nodup) :
    ((mssqlConstraintDeps (diffEnv src dest drop) p.1 p.2 col).filter Sqddl.isKey).Nodup := by
  unfold mssqlConstraintDeps List.Nodup
  rw [List.pairwise_filter, List.pairwise_map, List.pairwise_filter, List.pairwise_flatMap]
  constructor
  · intro c hc
    split
    · exact .nil
    · rename_i hi
      rw [List.pairwise_map]
      have hm : c.1 ∈ p.1.constraints := List.mem_of_getElem? (List.mem_zipIdx_iff_getElem?.1 hc)
      by_cases hf : Sqddl.isKey c.1 = true
      · refine List.Pairwise.imp ?_ (filter_one (h1 c.1 (List.mem_filter.2 ⟨hm, by simpa using hi⟩)
          (by rw [← isKey_eq]; exact hf)))
        intro a b hab
        exact hab.elim
      · exact List.pairwise_of_forall fun a b _ _ h => absurd h hf
  · have hz : (p.1.constraints.zipIdx.map (·.1)).Nodup := by
      rw [List.zipIdx_map_fst]
      exact nodup_of_map h.src.constraints
    have hz := List.pairwise_map.1 hz
    refine List.Pairwise.imp ?_ hz
    intro a b hab x hx y hy _ _ _ _ e
    split at hx
    · cases hx
    · split at hy
      · cases hy
      · obtain ⟨_, _, rfl⟩ := List.mem_map.1 hx
        obtain ⟨_, _, rfl⟩ := List.mem_map.1 hy
        exact hab e

omit hsrc hdest hp in
theorem indexDeps_nodup {col : Str} (h1 : ∀ x ∈ liveIndexes p.1, x.columns.Nodup) :
    (mssqlIndexDeps (diffEnv src dest drop) p.1 p.2 col).Nodup := by
  unfold mssqlIndexDeps List.Nodup
  rw [List.pairwise_filter, List.pairwise_flatMap]
  constructor
  · intro c hc
    split
    · exact .nil
    · rename_i hi
      rw [List.pairwise_map]
      refine List.Pairwise.imp ?_ (filter_one (h1 c (List.mem_filter.2 ⟨hc, by simpa using hi⟩)))
      intro a b hab
      exact hab.elim
  · have hz : p.1.indexes.Nodup := nodup_of_map h.src.indexes
    refine List.Pairwise.imp ?_ hz
    intro a b hab x hx y hy _ _ e
    split at hx
    · cases hx
    · split at hy
      · cases hy
      · obtain ⟨_, _, rfl⟩ := List.mem_map.1 hx
        obtain ⟨_, _, rfl⟩ := List.mem_map.1 hy
        exact hab e

/-- The keys that are dropped and not added again. -/
def droppedKeys (e : DiffEnv) (s t : Table) : List Constraint :=
  whenDrop e ((surplusConstraints e.destCache s t).filter Sqddl.isKey) ++
    ((mssqlReplacedPkeyPos e s t).bind (s.constraints[·]?)).toList

/-- The keys that are dropped and added again. -/
def redoneKeys (e : DiffEnv) (s t : Table) : List Constraint :=
  (mssqlAlterColumns e s t).flatMap fun p =>
    (mssqlConstraintDeps e s t p.1.columnName).filter Sqddl.isKey

/-- The indexes that are dropped and created again. -/
def redoneIdxs (e : DiffEnv) (s t : Table) : List Index :=
  (mssqlAlterColumns e s t).flatMap fun p => mssqlIndexDeps e s t p.1.columnName

theorem changes : Changes cur src.defaultCollation drop p.1 p.2
    (mssqlAlterTable (diffEnv src dest drop) p.1 p.2)
    (droppedKeys (diffEnv src dest drop) p.1 p.2) (redoneKeys (diffEnv src dest drop) p.1 p.2)
    (redoneIdxs (diffEnv src dest drop) p.1 p.2) where
  destTable := rfl
  dropIndexes := by
    have h := surplusIndexes_eq hdest (inCatalog_live (mem_commonTables hp).2.1) p.1
    show whenDrop _ (surplusIndexes (newCatalogCache dest) p.1 p.2) ++ _ = _
    rw [h]; rfl
  createIndexes := by
    show missingIndexes (newCatalogCache src) p.1 p.2 ++ _ = _
    rw [missingIndexes_eq hsrc (inCatalog_live (mem_commonTables hp).1) p.2]
    rfl
  dropConstraints := rfl
  addConstraints := by
    show (missingConstraints (newCatalogCache src) p.1 p.2).filter Sqddl.isKey ++ _ = _
    rw [missingConstraints_eq hsrc (inCatalog_live (mem_commonTables hp).1) p.2, List.filter_filter]
    simp only [isKey_eq]
    rfl
  dropColumns := by
    have h := surplusColumns_eq hdest (inCatalog_live (mem_commonTables hp).2.1) p.1
    show whenDrop _ (surplusColumns (newCatalogCache dest) p.1 p.2) = _
    rw [h]; rfl
  addColumns := missingColumns_eq hsrc (inCatalog_live (mem_commonTables hp).1) p.2
  alterColumns := alterColumns_eq hsrc hp
  dk := by
    intro x
    unfold droppedKeys whenDrop
    rw [List.mem_append, Option.mem_toList, Option.bind_eq_some_iff]
    have h1 : surplusConstraints (diffEnv src dest drop).destCache p.1 p.2 = _ :=
      surplusConstraints_eq hdest (inCatalog_live (mem_commonTables hp).2.1) p.1
    rw [h1, List.filter_filter]
    show x ∈ (if drop then _ else _ : List Constraint) ∨ _ ↔ _
    constructor
    · rintro (h2 | ⟨k, h2, h3⟩)
      · split at h2
        · rename_i hd
          obtain ⟨h3, h4⟩ := List.mem_filter.1 h2
          rw [Bool.and_eq_true, isKey_eq] at h4
          refine ⟨h3, h4.1, (goalCon_src h (find_src h h3)).2.2 ⟨by simpa using h4.2, Or.inl hd⟩⟩
        · cases h2
      · obtain ⟨a1, a2, a3, a4, a5⟩ := (replaced_iff hsrc hdest hp h h3).1 h2
        exact ⟨a2, primary_isKey a3, (goalCon_src h (find_src h a2)).2.2 ⟨a4, Or.inr ⟨a3, a5⟩⟩⟩
    · rintro ⟨h2, h3, h4⟩
      obtain ⟨h5, h6⟩ := (goalCon_src h (find_src h h2)).2.1 h4
      by_cases hd : drop = true
      · left
        rw [if_pos hd]
        exact List.mem_filter.2 ⟨h2, by rw [isKey_eq, h3, h5]; rfl⟩
      · right
        rcases h6 with h6 | ⟨h6, h7⟩
        · exact absurd h6 hd
        · obtain ⟨k, hk⟩ := List.mem_iff_getElem?.1 (List.mem_filter.1 h2).1
          exact ⟨k, (replaced_iff hsrc hdest hp h hk).2 ⟨by simpa using hd, h2, h6, h5, h7⟩, hk⟩
  rk := by
    intro x
    unfold redoneKeys
    rw [List.mem_flatMap, alterColumns_eq hsrc hp]
    unfold Hit
    simp only [List.mem_filter, mem_constraintDeps' hsrc hdest hp h, isKey_eq]
    grind
  ri := by
    intro x
    unfold redoneIdxs
    rw [List.mem_flatMap, alterColumns_eq hsrc hp]
    unfold Hit
    simp only [mem_indexDeps hsrc hdest hp]
    grind
  dkNodup := by
    unfold droppedKeys whenDrop
    have h1 : surplusConstraints (diffEnv src dest drop).destCache p.1 p.2 = _ :=
      surplusConstraints_eq hdest (inCatalog_live (mem_commonTables hp).2.1) p.1
    rw [h1, List.filter_filter]
    show ((if drop then _ else _ : List Constraint) ++ _).Nodup
    split
    · rename_i hd
      have : mssqlReplacedPkeyPos (diffEnv src dest drop) p.1 p.2 = none := by
        unfold mssqlReplacedPkeyPos
        rw [show (diffEnv src dest drop).dropObjects = drop from rfl, hd]
        simp only [Bool.not_true, Bool.false_and, Bool.false_eq_true, if_false]
        split <;> rfl
      rw [this]
      simp only [Option.bind_none, Option.toList_none, List.append_nil]
      exact nodup_of_map (nodup_filter (nodup_constraints h.src) _)
    · rw [List.nil_append]
      cases (mssqlReplacedPkeyPos (diffEnv src dest drop) p.1 p.2).bind (p.1.constraints[·]?) <;> simp
  rkNodup := by
    unfold redoneKeys
    rw [alterColumns_eq hsrc hp, ← List.flatMap_map (f := fun q : Column × Column => q.1.columnName)
      (g := fun c => (mssqlConstraintDeps (diffEnv src dest drop) p.1 p.2 c).filter Sqddl.isKey)]
    refine deps_nodup (changed_nodup h) _ (fun c _ =>
      constraintDeps_nodup h fun x hx hk => (h.pair.oneKey x hx hk).1) ?_
    · intro c hc d hd x hx hx'
      obtain ⟨q, hq, rfl⟩ := List.mem_map.1 hc
      obtain ⟨q', hq', rfl⟩ := List.mem_map.1 hd
      obtain ⟨hx, hk⟩ := List.mem_filter.1 hx
      obtain ⟨m1, m2, _⟩ := (mem_constraintDeps' hsrc hdest hp h).1 hx
      obtain ⟨_, m3, _⟩ := (mem_constraintDeps' hsrc hdest hp h).1 (List.mem_filter.1 hx').1
      rw [isKey_eq] at hk
      exact (h.pair.oneKey x m1 hk).2 q (changed_differs hq).1 q' (changed_differs hq').1
        (changed_differs hq).2 (changed_differs hq').2 m2 m3
  riNodup := by
    unfold redoneIdxs
    rw [alterColumns_eq hsrc hp, ← List.flatMap_map (f := fun q : Column × Column => q.1.columnName)
      (g := fun c => mssqlIndexDeps (diffEnv src dest drop) p.1 p.2 c)]
    refine deps_nodup (changed_nodup h) _ (fun c _ =>
      indexDeps_nodup h fun x hx => (h.pair.oneIndex x hx).1) ?_
    · intro c hc d hd x hx hx'
      obtain ⟨q, hq, rfl⟩ := List.mem_map.1 hc
      obtain ⟨q', hq', rfl⟩ := List.mem_map.1 hd
      obtain ⟨m1, m2, _⟩ := (mem_indexDeps hsrc hdest hp).1 hx
      obtain ⟨_, m3, _⟩ := (mem_indexDeps hsrc hdest hp).1 hx'
      exact (h.pair.oneIndex x m1).2 q (changed_differs hq).1 q' (changed_differs hq').1
        (changed_differs hq).2 (changed_differs hq').2 m2 m3

end

end MsSpec
