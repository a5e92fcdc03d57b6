import Verif.Lemmas.PgSteps
import Verif.Lemmas.Cache

/-!
# What becomes of a table that both versions of a Postgres database have
-/

namespace PgSpec
open SqlSpec Sqddl DdlText PgText EngineSpec Sqddl.Postgres
open PgText (Act Stmt)
open CatalogSpec (keyConstraint foreignKey liveColumns liveConstraints liveIndexes hasColumn hasIndex
  hasConstraint commonTables TableOk liveTables)

/-! ## Kinds of constraints -/

theorem kind_primary {cur : Str} {c : Constraint} {cs : List Str} :
    kindOf .postgres cur c = .primary cs ↔ primaryKey c = true ∧ c.columns = cs := by
  unfold kindOf primaryKey
  simp only [beq_iff_eq]
  by_cases h : c.constraintType = b!"PRIMARY KEY"
  · rw [if_pos h]; simp [h]
  · rw [if_neg h]
    constructor
    · intro h2
      repeat' split at h2
      all_goals cases h2
    · exact fun h2 => absurd h2.1 h

theorem primary_isKey {c : Constraint} (h : primaryKey c = true) : keyConstraint c = true :=
  primary_key (by simpa [primaryKey] using h)

theorem kind_key {cur : Str} {c : Constraint} {cs : List Str}
    (h : kindOf .postgres cur c = .primary cs ∨ kindOf .postgres cur c = .unique cs) :
    keyConstraint c = true := by
  rcases h with h | h
  · exact primary_isKey (kind_primary.1 h).1
  · unfold kindOf at h
    by_cases h1 : c.constraintType = b!"PRIMARY KEY"
    · rw [if_pos h1] at h; cases h
    · rw [if_neg h1] at h
      by_cases h2 : c.constraintType = b!"UNIQUE"
      · unfold keyConstraint
        rw [h2]; decide
      · rw [if_neg h2] at h
        repeat' split at h
        all_goals cases h

theorem conOf_name {cur : Str} {c : Constraint} (h : c.constraintName ≠ []) :
    (conOf .postgres cur c).name = some c.constraintName := by
  unfold conOf
  dsimp only
  rw [if_neg (by rintro (h1 | h1); exact h h1; cases h1.1)]

/-! ## Lists of changes -/

/-- The columns that are removed. -/
def lostCols (drop : Bool) (s t : Table) : List Column :=
  if drop then (liveColumns s).filter (gone t) else []

/-- The columns that are added. -/
def newCols (s t : Table) : List Column := (liveColumns t).filter fun x => !hasColumn s x.columnName

/-- The columns that are changed. -/
def changedCols (coll : Str) (s t : Table) : List (Column × Column) :=
  (CatalogSpec.commonColumns s t).filter fun p => columnsAreDifferent .postgres coll p.1 p.2

/-- The keys that are added. -/
def newKeys (s t : Table) : List Constraint :=
  (liveConstraints t).filter fun c => keyConstraint c && !hasConstraint s c.constraintName

/-- The flags of the constraints are not the same. -/
def flagsDiffer (p : Constraint × Constraint) : Bool :=
  p.1.isDeferrable != p.2.isDeferrable || p.1.isInitiallyDeferred != p.2.isInitiallyDeferred

/-- The constraints whose flags change. -/
def flagged (s t : Table) : List Constraint :=
  ((CatalogSpec.commonConstraints s t).filter flagsDiffer).map (·.2)

/-- The indexes that are removed. -/
def lostIdxs (drop : Bool) (s t : Table) : List Index :=
  if drop then (liveIndexes s).filter fun x => !hasIndex t x.indexName else []

/-- The indexes that are added. -/
def newIdxs (s t : Table) : List Index := (liveIndexes t).filter fun x => !hasIndex s x.indexName

/-- What a table becomes. -/
def endTbl (e : Env) (drop : Bool) (s t : Table) : Tbl where
  col := colsAll e.cur (newKeys s t) (endCols e (changedCols e.coll s t)
    (puts (fun c => c.name) (without ((lostCols drop s t).map fun c => c.columnName)
      (tblOf e.cur e.coll s).col) ((newCols s t).map (colOf .postgres e.coll false))))
  con := goalCon e.cur drop s t
  idx n := newer drop ((tblOf e.cur e.coll s).idx n) ((tblOf e.cur e.coll t).idx n)

/-- What is known about two versions of a table. -/
structure PairOk (cur coll : Str) (early drop : Bool) (s t : Table) : Prop where
  pair : TablePair cur coll early drop s t
  src : TableOk s
  dest : TableOk t
  srcPrimary : ∀ x ∈ s.constraints, ∀ y ∈ s.constraints, primaryKey x = true →
    primaryKey y = true → x = y
  destPrimary : ∀ x ∈ t.constraints, ∀ y ∈ t.constraints, primaryKey x = true →
    primaryKey y = true → x = y
  srcNotNull : ∀ x ∈ liveConstraints s, primaryKey x = true →
    ∀ y ∈ liveColumns s, y.columnName ∈ x.columns → y.isNotNull = true
  destNotNull : ∀ x ∈ liveConstraints t, primaryKey x = true →
    ∀ y ∈ liveColumns t, y.columnName ∈ x.columns → y.isNotNull = true
  flags : ∀ y ∈ liveColumns t, y.isPrimaryKey = true →
    ∃ x ∈ liveConstraints t, primaryKey x = true ∧ y.columnName ∈ x.columns
  keyColumns : ∀ x ∈ liveConstraints t, primaryKey x = true → ∀ n ∈ x.columns, hasColumn t n = true
  same : t.tableSchema = s.tableSchema ∧ t.tableName = s.tableName
  constraints : ∀ x ∈ liveConstraints t, x.tableSchema = t.tableSchema ∧ x.tableName = t.tableName
  columns : ∀ x ∈ liveColumns t, x.tableName = t.tableName
  srcIndexes : ∀ x ∈ s.indexes, x.tableSchema = s.tableSchema
  destIndexes : ∀ x ∈ t.indexes, x.tableSchema = t.tableSchema ∧ x.tableName = t.tableName

/-- A primary key of the second version is not in the first one. -/
def newPrimary (s t : Table) : Bool := (newKeys s t).any primaryKey

/-- The constraint is to be dropped. -/
def dropsKey (drop : Bool) (s t : Table) (x : Constraint) : Bool :=
  keyConstraint x && (drop && !hasConstraint t x.constraintName ||
    !drop && primaryKey x && newPrimary s t)

/-- The changes of a table, in terms of the two tables. -/
structure Changes (e : Env) (drop : Bool) (s t : Table) (a : AlterTable) : Prop where
  destTable : a.destTable = t
  dropIndexes : a.dropIndexes = lostIdxs drop s t
  dropped : ∀ n x, (liveConstraints s).find? (fun c => c.constraintName == n) = some x →
    (n ∈ a.dropConstraints.map (fun c => c.constraintName) ↔ dropsKey drop s t x = true)
  dropColumns : a.dropColumns = lostCols drop s t
  addColumns : a.addColumns = newCols s t
  alterColumns : a.alterColumns = changedCols e.coll s t
  alterConstraints : a.alterConstraints.map (·.2) = flagged s t
  validate : a.validateNotNull = toValidate e (changedCols e.coll s t)
  createIndexes : a.createIndexes = newIdxs s t
  addConstraints : a.addConstraints = newKeys s t

theorem changes {src dest : Catalog} (hsrc : CatalogSpec.Ok src) (hdest : CatalogSpec.Ok dest)
    (e : Env) (hv : e.version = src.versionNums) (hcoll : e.coll = src.defaultCollation) (drop : Bool)
    {p : Table × Table} (hp : p ∈ commonTables src dest)
    (hu : ∀ x ∈ p.1.constraints, ∀ y ∈ p.1.constraints, primaryKey x = true →
      primaryKey y = true → x = y) (ho : TableOk p.1) :
    Changes e drop p.1 p.2 (pgAlterTable (diffEnv src dest drop) p.1 p.2) where
  destTable := rfl
  dropped := by
    intro n x hx
    have h1 := surplusConstraints_eq hdest (inCatalog_live (mem_commonTables hp).2.1) p.1
    have h2 := missingConstraints_eq hsrc (inCatalog_live (mem_commonTables hp).1) p.2
    obtain ⟨s, hs, ht⟩ := inCatalog_live (mem_commonTables hp).1
    obtain ⟨hx1, rfl⟩ := find_some hx
    have uniq : ∀ y ∈ liveConstraints p.1, y.constraintName = x.constraintName → y = x := by
      intro y hy hn
      have := find?_self (k := fun c : Constraint => c.constraintName) (nodup_constraints ho) hy
      rw [hn, hx] at this
      cases this; rfl
    show x.constraintName ∈ (whenDrop _ ((surplusConstraints (newCatalogCache dest) p.1 p.2).filter
      Sqddl.isKey) ++ pgReplacedPkey (diffEnv src dest drop) p.1 p.2).map (fun c => c.constraintName) ↔ _
    have hany : (missingConstraints (newCatalogCache src) p.1 p.2).any
        (fun c => decide (c.constraintType = PRIMARY_KEY)) = newPrimary p.1 p.2 := by
      rw [h2, newPrimary, newKeys, List.any_filter, List.any_filter]
      congr 1
      funext c
      cases hc : primaryKey c with
      | true =>
        rw [primary_isKey hc]
        unfold primaryKey at hc
        simp only [beq_iff_eq] at hc
        rw [hc]
        simp [PRIMARY_KEY]
      | false =>
        unfold primaryKey at hc
        simp only [beq_eq_false_iff_ne] at hc
        have : decide (c.constraintType = PRIMARY_KEY) = false := decide_eq_false hc
        rw [this]; simp
    have hrep : pgReplacedPkey (diffEnv src dest drop) p.1 p.2 =
        if newPrimary p.1 p.2 && !drop then ((newCatalogCache src).getPrimaryKey p.1).toOption.toList
        else [] := by
      unfold pgReplacedPkey
      show (if (missingConstraints (newCatalogCache src) p.1 p.2).any
        (fun c => decide (c.constraintType = PRIMARY_KEY)) && !drop then _ else _) = _
      rw [hany]
      rfl
    rw [h1, hrep, List.filter_filter, whenDrop, List.map_append, List.mem_append]
    show x.constraintName ∈ (if drop then _ else _ : List Constraint).map _ ∨ _ ↔ _
    unfold dropsKey
    cases drop with
    | true =>
      simp only [if_true, Bool.not_true, Bool.and_false, Bool.false_eq_true, if_false, List.map_nil,
        List.not_mem_nil, or_false, Bool.true_and, Bool.false_and, Bool.or_false]
      simp only [List.mem_map, List.mem_filter, Bool.and_eq_true, isKey_eq]
      constructor
      · rintro ⟨y, ⟨hy, hk⟩, hn⟩
        have := uniq y hy hn
        subst this
        exact hk
      · intro hk
        exact ⟨x, ⟨hx1, hk⟩, rfl⟩
    | false =>
      simp only [Bool.false_eq_true, if_false, Bool.not_false, Bool.and_true, List.map_nil,
        List.not_mem_nil, false_or, Bool.true_and, Bool.false_and, Bool.false_or, Bool.and_eq_true]
      cases hn : newPrimary p.1 p.2 with
      | false => simp
      | true =>
        simp only [if_true, and_true, List.mem_map, Option.mem_toList]
        constructor
        · rintro ⟨y, hy, hn⟩
          obtain ⟨h3, h4, h5⟩ := getPrimaryKey_mem hsrc hs ht hy
          have hy' : y ∈ liveConstraints p.1 := List.mem_filter.2 ⟨h3, by rw [h5]; rfl⟩
          have := uniq y hy' hn
          subst this
          have hpk : primaryKey y = true := by unfold primaryKey; rw [h4]; decide
          exact ⟨primary_isKey hpk, hpk⟩
        · rintro ⟨_, hpk⟩
          refine ⟨x, getPrimaryKey_eq hsrc hs ht (List.mem_filter.1 hx1).1 (by
            unfold primaryKey at hpk
            exact eq_of_beq hpk) (by simpa using (List.mem_filter.1 hx1).2) ?_, rfl⟩
          intro y hy hyp
          exact hu y hy x (List.mem_filter.1 hx1).1 (by unfold primaryKey; rw [hyp]; decide) hpk
  dropIndexes := by
    have h := surplusIndexes_eq hdest (inCatalog_live (mem_commonTables hp).2.1) p.1
    show whenDrop _ (surplusIndexes (newCatalogCache dest) p.1 p.2) = _
    rw [h]; rfl
  dropColumns := by
    have h := surplusColumns_eq hdest (inCatalog_live (mem_commonTables hp).2.1) p.1
    show whenDrop _ (surplusColumns (newCatalogCache dest) p.1 p.2) = _
    rw [h]; rfl
  addColumns := missingColumns_eq hsrc (inCatalog_live (mem_commonTables hp).1) p.2
  alterColumns := by
    show (Sqddl.commonColumns (newCatalogCache src) p.1 p.2).filter _ = _
    rw [commonColumns_eq hsrc (inCatalog_live (mem_commonTables hp).1) p.2, hcoll]
    rfl
  alterConstraints := by
    show ((Sqddl.commonConstraints (newCatalogCache src) p.1 p.2).filter _).map _ = _
    rw [commonConstraints_eq hsrc (inCatalog_live (mem_commonTables hp).1) p.2]
    rfl
  validate := by
    show (((Sqddl.commonColumns (newCatalogCache src) p.1 p.2).filter _).filter _).map _ = _
    rw [commonColumns_eq hsrc (inCatalog_live (mem_commonTables hp).1) p.2]
    unfold toValidate changedCols byCheck
    rw [hv, hcoll]
    rfl
  createIndexes := missingIndexes_eq hsrc (inCatalog_live (mem_commonTables hp).1) p.2
  addConstraints := by
    show (missingConstraints (newCatalogCache src) p.1 p.2).filter Sqddl.isKey = _
    rw [missingConstraints_eq hsrc (inCatalog_live (mem_commonTables hp).1) p.2, List.filter_filter]
    simp only [isKey_eq]
    rfl

/-! ## Looking up in the lists -/

section
variable {cur coll : Str} {early drop : Bool} {s t : Table} (h : PairOk cur coll early drop s t)
include h

theorem live_same {x y : Constraint} (hx : x ∈ liveConstraints s) (hy : y ∈ liveConstraints s)
    (h1 : primaryKey x = true) (h2 : primaryKey y = true) : x = y :=
  h.srcPrimary x (List.mem_filter.1 hx).1 y (List.mem_filter.1 hy).1 h1 h2

theorem live_same' {x y : Constraint} (hx : x ∈ liveConstraints t) (hy : y ∈ liveConstraints t)
    (h1 : primaryKey x = true) (h2 : primaryKey y = true) : x = y :=
  h.destPrimary x (List.mem_filter.1 hx).1 y (List.mem_filter.1 hy).1 h1 h2

theorem same_con {n : Str} {x y : Constraint}
    (h1 : (liveConstraints s).find? (fun c => c.constraintName == n) = some x)
    (h2 : (liveConstraints t).find? (fun c => c.constraintName == n) = some y) :
    SameConstraint cur x y :=
  h.pair.constraints (x, y) ((mem_commonConstraints_iff h.dest).2 ⟨n, h1, h2⟩)

theorem same_primary {n : Str} {x y : Constraint}
    (h1 : (liveConstraints s).find? (fun c => c.constraintName == n) = some x)
    (h2 : (liveConstraints t).find? (fun c => c.constraintName == n) = some y) :
    primaryKey x = primaryKey y ∧ (primaryKey x = true → x.columns = y.columns) := by
  have hk := (same_con h h1 h2).kind
  cases hx : primaryKey x with
  | true =>
    have e := kind_primary (cur := cur).2 ⟨hx, rfl⟩
    rw [hk] at e
    obtain ⟨e1, e2⟩ := kind_primary.1 e
    exact ⟨e1.symm, fun _ => e2.symm⟩
  | false =>
    cases hy : primaryKey y with
    | false => exact ⟨rfl, by simp⟩
    | true =>
      have e := kind_primary (cur := cur).2 ⟨hy, rfl⟩
      rw [← hk] at e
      rw [(kind_primary.1 e).1] at hx
      cases hx

theorem find_newKeys (n : Str) : (newKeys s t).find? (fun c => c.constraintName == n) =
    ((liveConstraints t).find? fun c => c.constraintName == n).filter fun c =>
      keyConstraint c && !hasConstraint s c.constraintName :=
  find_filter (nm := fun c : Constraint => c.constraintName) (nodup_constraints h.dest) _ n

theorem find_flagged (n : Str) : (flagged s t).find? (fun c => c.constraintName == n) =
    match (liveConstraints s).find? (fun c => c.constraintName == n),
      (liveConstraints t).find? (fun c => c.constraintName == n) with
    | some a, some b => if flagsDiffer (a, b) then some b else none
    | _, _ => none := by
  symm
  refine find?_eq_of_unique fun y => ?_
  unfold flagged
  rw [List.mem_map]
  constructor
  · intro h1
    split at h1
    · rename_i a b ha hb
      split at h1
      · cases h1
        exact ⟨⟨(a, y), List.mem_filter.2 ⟨(mem_commonConstraints_iff h.dest).2 ⟨n, ha, hb⟩,
          by assumption⟩, rfl⟩, by simpa using (find_some hb).2⟩
      · cases h1
    · cases h1
  · rintro ⟨⟨q, hq, rfl⟩, hn⟩
    obtain ⟨hq1, hq2⟩ := List.mem_filter.1 hq
    obtain ⟨m, ha, hb⟩ := (mem_commonConstraints_iff h.dest).1 hq1
    have h2 := (find_some hb).2
    have h3 : q.2.constraintName = n := by simpa using hn
    have h4 : m = n := by rw [← h2, ← h3]
    subst h4
    rw [ha, hb]
    simp [hq2]

theorem nodup_flagged : ((flagged s t).map fun c => c.constraintName).Nodup := by
  have := nodup_commonConstraints (s := s) h.dest flagsDiffer
  unfold flagged
  rw [List.map_map] at this ⊢
  have e : ((CatalogSpec.commonConstraints s t).filter flagsDiffer).map
      ((fun c : Constraint => c.constraintName) ∘ fun x => x.1) =
      ((CatalogSpec.commonConstraints s t).filter flagsDiffer).map
      ((fun c : Constraint => c.constraintName) ∘ fun x => x.2) := by
    refine List.map_congr_left fun q hq => ?_
    obtain ⟨m, ha, hb⟩ := (mem_commonConstraints_iff h.dest).1 (List.mem_filter.1 hq).1
    show q.1.constraintName = q.2.constraintName
    rw [(find_some ha).2, (find_some hb).2]
  rw [← e]
  exact this

/-- A key that is dropped is not in the goal. -/
theorem dropsKey_iff {n : Str} {x : Constraint}
    (hx : (liveConstraints s).find? (fun c => c.constraintName == n) = some x) :
    dropsKey drop s t x = (keyConstraint x && (goalCon cur drop s t n).isNone) := by
  obtain ⟨hx1, rfl⟩ := find_some hx
  unfold dropsKey
  cases hk : keyConstraint x with
  | false => rfl
  | true =>
    rw [Bool.true_and, Bool.true_and, hasConstraint_find]
    unfold goalCon
    rw [hx]
    cases hy : (liveConstraints t).find? fun c => c.constraintName == x.constraintName with
    | some y =>
      have : (primaryKey x && newPrimary s t) = false := by
        rw [Bool.and_eq_false_iff]
        by_cases hp : primaryKey x = true
        · right
          rw [Bool.eq_false_iff]
          intro hn
          obtain ⟨z, hz, hzp⟩ := List.any_eq_true.1 hn
          obtain ⟨hz1, hz2⟩ := List.mem_filter.1 hz
          have e := live_same' h (find_some hy).1 hz1 ((same_primary h hx hy).1 ▸ hp) hzp
          subst e
          rw [Bool.and_eq_true, hasConstraint_find, (find_some hy).2, hx] at hz2
          simp at hz2
        · left; simpa using hp
      cases drop <;> simp [this]
    | none =>
      cases drop with
      | true => simp
      | false =>
        simp only [Option.isSome_none, Bool.not_false, Bool.false_and, Bool.true_and, Bool.false_or]
        have : (primaryKey x && newPrimary s t) = (primaryKey x && (liveConstraints t).any primaryKey) := by
          cases hp : primaryKey x with
          | false => rfl
          | true =>
            rw [Bool.true_and, Bool.true_and, newPrimary, newKeys, List.any_filter, Bool.eq_iff_iff,
              List.any_eq_true, List.any_eq_true]
            constructor
            · rintro ⟨z, hz, h1⟩
              rw [Bool.and_eq_true] at h1
              exact ⟨z, hz, h1.2⟩
            · rintro ⟨z, hz, h1⟩
              refine ⟨z, hz, ?_⟩
              rw [h1, primary_isKey h1, Bool.and_true, Bool.true_and, Bool.not_eq_true']
              rw [Bool.eq_false_iff]
              intro hs
              rw [hasConstraint_find] at hs
              obtain ⟨w, hw⟩ := Option.isSome_iff_exists.1 hs
              have hz' := find?_self (k := fun c : Constraint => c.constraintName)
                (nodup_constraints h.dest) hz
              have e := live_same h hx1 (find_some hw).1 hp ((same_primary h hw hz').1.trans h1)
              subst e
              rw [(find_some hw).2, hz'] at hy
              cases hy
        rw [this]
        cases primaryKey x && (liveConstraints t).any primaryKey <;> simp

/-- The constraints at the end. -/
theorem con_end {DC : List Str} {lT lS : Str → Bool}
    (hD : ∀ n x, (liveConstraints s).find? (fun c => c.constraintName == n) = some x →
      (n ∈ DC ↔ dropsKey drop s t x = true))
    (hT : ∀ n, lT n = (goalCon cur drop s t n).isNone)
    (hS : ∀ n, lS n = ((liveConstraints s).find? fun c => c.constraintName == n).isNone) (n : Str) :
    (goalCon cur drop s t n).filter (fun c => !(isF c && lS n)) =
    puts (fun c => c.name.getD []) (alterCons (flagged s t) fun m =>
        (without DC ((tblOf cur coll s).cut lT).con m).filter fun c =>
          !((lostCols drop s t).map fun c => c.columnName).any fun n => conUses n c)
      ((newKeys s t).map (conOf .postgres cur)) n := by
  rw [puts_map (nm := fun c : Constraint => c.constraintName) (conOf .postgres cur) (by
    intro c hc
    rw [conOf_name (named h.dest (List.mem_filter.1 hc).1)]; rfl), find_newKeys h]
  unfold alterCons
  rw [find_flagged h, hS]
  have e0 : ((tblOf cur coll s).cut lT).con n = (((liveConstraints s).find? fun c =>
      c.constraintName == n).map (conOf .postgres cur)).filter fun c => !(isF c && lT n) := rfl
  cases hx : (liveConstraints s).find? fun c => c.constraintName == n with
  | none =>
    rw [hx] at e0
    have e1 : without DC ((tblOf cur coll s).cut lT).con n = none := by
      unfold without
      split
      · rfl
      · exact e0
    dsimp only
    rw [e1]
    cases hy : (liveConstraints t).find? fun c => c.constraintName == n with
    | none =>
      unfold goalCon
      rw [hx, hy]
      rfl
    | some y =>
      unfold goalCon
      rw [hy]
      dsimp only
      have hs : hasConstraint s y.constraintName = false := by
        rw [hasConstraint_find, (find_some hy).2, hx]; rfl
      simp only [Option.filter_some, hs, isF_conOf, Option.isNone_none, Bool.and_true, Bool.not_false]
      cases hk : keyConstraint y with
      | true => rw [key_not_foreign hk]; rfl
      | false =>
        cases hf : foreignKey y with
        | true => rfl
        | false =>
          have := h.pair.checks y (find_some hy).1 hk hf
          rw [hs] at this; cases this
  | some x =>
    have hx1 := (find_some hx).1
    rw [hx] at e0
    rw [Option.map_some, Option.filter_some, isF_conOf] at e0
    have hdrop : n ∈ DC ↔ (keyConstraint x && (goalCon cur drop s t n).isNone) = true := by
      rw [hD n x hx, dropsKey_iff h hx]
    dsimp only
    rw [Option.isNone_some]
    simp only [Bool.and_false, Bool.not_false, filter_true]
    cases hy : (liveConstraints t).find? fun c => c.constraintName == n with
    | none =>
      dsimp only
      rw [Option.filter_none]
      dsimp only
      cases hg : goalCon cur drop s t n with
      | none =>
        symm
        rw [hg] at hdrop
        simp only [Option.isNone_none, Bool.and_true] at hdrop
        cases hk : keyConstraint x with
        | true =>
          have : without DC ((tblOf cur coll s).cut lT).con n = none := by
            unfold without
            rw [if_pos (hdrop.2 hk)]
          rw [this]; rfl
        | false =>
          have hnd : n ∉ DC := by rw [hdrop, hk]; simp
          have e1 : without DC ((tblOf cur coll s).cut lT).con n = ((tblOf cur coll s).cut lT).con n := by
            unfold without
            rw [if_neg hnd]
          rw [e1, e0, hT, hg]
          cases hf : foreignKey x with
          | true => rfl
          | false =>
            have hd : drop = true := by
              unfold goalCon at hg
              rw [hy, hx] at hg
              dsimp only at hg
              split at hg
              · rename_i h1
                rw [Bool.or_eq_true, Bool.and_eq_true] at h1
                rcases h1 with h1 | h1
                · exact h1
                · rw [primary_isKey h1.1] at hk; cases hk
              · cases hg
            obtain ⟨y, hy1, hy2, hy3⟩ := h.pair.surplusChecks hd x hx1 hk hf (by
              rw [hasConstraint_find, (find_some hx).2, hy]; rfl)
            simp only [Bool.false_and, Bool.not_false, if_true, Option.filter_some]
            rw [if_neg]
            rw [Bool.not_eq_true', Bool.not_eq_false, List.any_eq_true]
            refine ⟨y.columnName, List.mem_map.2 ⟨y, ?_, rfl⟩, hy3⟩
            unfold lostCols
            rw [hd]
            exact List.mem_filter.2 ⟨hy1, hy2⟩
      | some d =>
        rw [hg] at hdrop
        simp only [Option.isNone_some, Bool.and_false, Bool.false_eq_true, iff_false] at hdrop
        have e1 : without DC ((tblOf cur coll s).cut lT).con n = ((tblOf cur coll s).cut lT).con n := by
          unfold without
          rw [if_neg hdrop]
        rw [e1, e0, hT, hg]
        simp only [Option.isNone_some, Bool.and_false, Bool.not_false, if_true]
        unfold goalCon at hg
        rw [hy, hx] at hg
        dsimp only at hg
        split at hg
        · cases hg
        · rename_i h1
          cases hd : drop with
          | true => rw [hd] at h1; simp at h1
          | false =>
            simp only [lostCols, Bool.false_eq_true, if_false, List.map_nil, List.any_nil, Bool.not_false,
              filter_true]
            exact hg.symm
    | some y =>
      have hg : goalCon cur drop s t n = some (conOf .postgres cur y) := by
        unfold goalCon
        rw [hy]
      rw [hg] at hdrop
      simp only [Option.isNone_some, Bool.and_false, Bool.false_eq_true, iff_false] at hdrop
      have hs : hasConstraint s y.constraintName = true := by
        rw [hasConstraint_find, (find_some hy).2, hx]; rfl
      have e1 : without DC ((tblOf cur coll s).cut lT).con n = some (conOf .postgres cur x) := by
        unfold without
        rw [if_neg hdrop, e0, hT, hg]
        simp
      have e2 : (some (conOf .postgres cur x)).filter (fun c =>
          !((lostCols drop s t).map fun c => c.columnName).any fun n => conUses n c) =
          some (conOf .postgres cur x) := by
        rw [Option.filter_some, if_pos]
        rw [Bool.not_eq_true', Bool.eq_false_iff]
        intro h1
        obtain ⟨m, hm, h2⟩ := List.any_eq_true.1 h1
        obtain ⟨c, hc, rfl⟩ := List.mem_map.1 hm
        unfold lostCols at hc
        split at hc
        · rename_i hd
          obtain ⟨hc1, hc2⟩ := List.mem_filter.1 hc
          have := (h.pair.mentions hd c hc1 hc2).1 x hx1 (by
            rw [hasConstraint_find, (find_some hx).2, hy]; rfl)
          rw [h2] at this; cases this
        · cases hc
      dsimp only
      rw [hg, e1, e2]
      rw [Option.filter_some, hs]
      simp only [Bool.not_true, Bool.and_false, Bool.false_eq_true, if_false]
      have hc := same_con h hx hy
      have hn : x.constraintName = y.constraintName := by rw [(find_some hx).2, (find_some hy).2]
      have hnx := named h.src hx1
      have hny := named h.dest (find_some hy).1
      cases hfl : flagsDiffer (x, y) with
      | true =>
        simp only [if_true, Option.map_some]
        congr 1
        unfold conOf
        rw [hc.kind, hc.valid, hn]
        rcases hc.flags with hf | ⟨_, hf⟩
        · unfold flagsDiffer at hfl
          simp [hf.1, hf.2] at hfl
        · have hdd : defers .postgres = true := rfl
          rw [hdd]
          simp only [Bool.and_true]
          cases h1 : y.isInitiallyDeferred with
          | true => simp [hf h1]
          | false => simp
      | false =>
        simp only [Bool.false_eq_true, if_false]
        congr 1
        unfold conOf
        rw [hc.kind, hc.valid, hn]
        unfold flagsDiffer at hfl
        simp only [Bool.or_eq_false_iff, bne_eq_false_iff_eq] at hfl
        rw [hfl.1, hfl.2]
        simp

theorem find_newIdxs (n : Str) : (newIdxs s t).find? (fun c => c.indexName == n) =
    ((liveIndexes t).find? fun c => c.indexName == n).filter fun c => !hasIndex s c.indexName :=
  find_filter (nm := fun c : Index => c.indexName) (nodup_indexes h.dest) _ n

theorem mem_lostIdxs (n : Str) : n ∈ ((lostIdxs drop s t).map fun x => x.indexName) ↔
    drop = true ∧ ∃ x, (liveIndexes s).find? (fun c => c.indexName == n) = some x ∧
      (liveIndexes t).find? (fun c => c.indexName == n) = none := by
  unfold lostIdxs
  cases drop with
  | false => simp
  | true =>
    rw [if_pos rfl, mem_filter_names (nm := fun c : Index => c.indexName) (nodup_indexes h.src)]
    constructor
    · rintro ⟨x, h1, h2⟩
      refine ⟨rfl, x, h1, ?_⟩
      rw [hasIndex_find, (find_some h1).2] at h2
      simpa using h2
    · rintro ⟨_, x, h1, h2⟩
      refine ⟨x, h1, ?_⟩
      rw [hasIndex_find, (find_some h1).2, h2]
      rfl

/-- The indexes at the end. -/
theorem idx_end (n : Str) :
    newer drop ((tblOf cur coll s).idx n) ((tblOf cur coll t).idx n) =
    puts (fun x => x.name) (fun m =>
        (without ((lostIdxs drop s t).map fun x => x.indexName) (tblOf cur coll s).idx m).filter fun x =>
          !((lostCols drop s t).map fun c => c.columnName).any fun n => idxUses n x)
      ((newIdxs s t).map (idxOf .postgres cur false true)) n := by
  rw [puts_map (nm := fun c : Index => c.indexName) (idxOf .postgres cur false true) (by
    intro c hc; rfl), find_newIdxs h]
  have hs : (tblOf cur coll s).idx n = ((liveIndexes s).find? fun x => x.indexName == n).map
    (idxOf .postgres cur false true) := rfl
  have ht : (tblOf cur coll t).idx n = ((liveIndexes t).find? fun x => x.indexName == n).map
    (idxOf .postgres cur false true) := rfl
  unfold without
  simp only [mem_lostIdxs h]
  rw [hs, ht]
  cases hx : (liveIndexes s).find? fun c => c.indexName == n with
  | none =>
    cases hy : (liveIndexes t).find? fun c => c.indexName == n with
    | none => simp [newer]
    | some y =>
      have : hasIndex s y.indexName = false := by rw [hasIndex_find, (find_some hy).2, hx]; rfl
      rw [Option.filter_some, this]
      simp [newer]
  | some x =>
    cases hy : (liveIndexes t).find? fun c => c.indexName == n with
    | none =>
      cases hd : drop with
      | true => simp [newer]
      | false => simp [newer, lostCols, filter_true]
    | some y =>
      have h1 : hasIndex s y.indexName = true := by rw [hasIndex_find, (find_some hy).2, hx]; rfl
      have e := h.pair.indexes x (find_some hx).1 y (find_some hy).1
        ((find_some hx).2.trans (find_some hy).2.symm)
      have e2 : ((lostCols drop s t).map fun c => c.columnName).any
          (fun n => idxUses n (idxOf .postgres cur false true x)) = false := by
        rw [Bool.eq_false_iff]
        intro h1
        obtain ⟨m, hm, h2⟩ := List.any_eq_true.1 h1
        obtain ⟨c, hc, rfl⟩ := List.mem_map.1 hm
        unfold lostCols at hc
        split at hc
        · rename_i hd
          obtain ⟨hc1, hc2⟩ := List.mem_filter.1 hc
          have := (h.pair.mentions hd c hc1 hc2).2.1 x (find_some hx).1 (by
            rw [hasIndex_find, (find_some hx).2, hy]; rfl)
          rw [h2] at this; cases this
        · cases hc
      have e3 : (some (idxOf .postgres cur false true x)).filter (fun x =>
          !((lostCols drop s t).map fun c => c.columnName).any fun n => idxUses n x) =
          some (idxOf .postgres cur false true x) := by
        rw [Option.filter_some, e2]; rfl
      rw [Option.filter_some, h1]
      simp only [Option.map_some, e3, newer, Bool.not_true, Bool.false_eq_true, if_false, reduceCtorEq,
        and_false, exists_false, ← e]

end

end PgSpec
