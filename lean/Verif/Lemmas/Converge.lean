import Verif.Spec.Converge
import Verif.Spec.DdlAlter
import Verif.Lemmas.EnginePlan
import Verif.Props.DiffAlter

/-!
# The tables of two catalogs and the changes between them
-/

namespace EngineSpec
open SqlSpec Sqddl DdlText CatalogSpec

/-! ## Looking up by name -/

section
variable {α : Type} {nm : α → Str} {xs : List α} (h0 : (xs.map nm).Nodup)

theorem find_some {n : Str} {x : α} (h : xs.find? (fun y => nm y == n) = some x) :
    x ∈ xs ∧ nm x = n :=
  ⟨List.mem_of_find?_eq_some h, by simpa using List.find?_some h⟩

theorem find_none {n : Str} (h : xs.find? (fun y => nm y == n) = none) : ∀ x ∈ xs, nm x ≠ n := by
  intro x hx e
  rw [List.find?_eq_none] at h
  exact h x hx (by simpa using e)

include h0 in
theorem find_filter (p : α → Bool) (n : Str) :
    (xs.filter p).find? (fun y => nm y == n) = (xs.find? fun y => nm y == n).filter p := by
  symm
  refine find?_eq_of_unique fun x => ?_
  rw [Option.filter_eq_some_iff, List.mem_filter]
  constructor
  · rintro ⟨h1, h2⟩
    obtain ⟨h3, h4⟩ := find_some h1
    exact ⟨⟨h3, h2⟩, by simpa using h4⟩
  · rintro ⟨⟨h1, h2⟩, h3⟩
    have : nm x = n := by simpa using h3
    subst this
    exact ⟨find?_self h0 h1, h2⟩

include h0 in
theorem mem_filter_names (p : α → Bool) (n : Str) :
    n ∈ (xs.filter p).map nm ↔ ∃ x, xs.find? (fun y => nm y == n) = some x ∧ p x = true := by
  simp only [List.mem_map, List.mem_filter]
  constructor
  · rintro ⟨x, ⟨h1, h2⟩, rfl⟩
    exact ⟨x, find?_self h0 h1, h2⟩
  · rintro ⟨x, h1, h2⟩
    obtain ⟨h3, h4⟩ := find_some h1
    exact ⟨x, ⟨h3, h2⟩, h4⟩

theorem find_map {β : Type} {mn : β → Str} (g : α → β) (hg : ∀ x ∈ xs, mn (g x) = nm x) (n : Str) :
    (xs.map g).find? (fun y => mn y == n) = (xs.find? fun y => nm y == n).map g := by
  induction xs with
  | nil => rfl
  | cons x xs ih =>
    rw [List.map_cons, List.find?_cons, List.find?_cons, hg x (by simp),
      ih fun y hy => hg y (by simp [hy])]
    cases nm x == n <;> rfl

theorem puts_map {β : Type} {mn : β → Str} (g : α → β) (hg : ∀ x ∈ xs, mn (g x) = nm x)
    (f : Str → Option β) (n : Str) :
    puts mn f (xs.map g) n =
      match xs.find? fun y => nm y == n with
      | some x => some (g x)
      | none => f n := by
  unfold puts
  rw [find_map g hg]
  cases xs.find? fun y => nm y == n <;> rfl

end

theorem nodup_filter {α : Type} {nm : α → Str} {xs : List α} (h0 : (xs.map nm).Nodup)
    (p : α → Bool) : ((xs.filter p).map nm).Nodup :=
  h0.sublist (List.filter_sublist.map _)

theorem any_find {α : Type} {nm : α → Str} (xs : List α) (n : Str) :
    (xs.any fun y => nm y == n) = (xs.find? fun y => nm y == n).isSome :=
  (isSome_eq_any rfl).symm

theorem hasColumn_find (t : Table) (n : Str) :
    hasColumn t n = ((liveColumns t).find? fun x => x.columnName == n).isSome :=
  any_find (nm := fun x : Column => x.columnName) _ n

theorem hasIndex_find (t : Table) (n : Str) :
    hasIndex t n = ((liveIndexes t).find? fun x => x.indexName == n).isSome :=
  any_find (nm := fun x : Index => x.indexName) _ n

theorem hasConstraint_find (t : Table) (n : Str) :
    hasConstraint t n = ((liveConstraints t).find? fun x => x.constraintName == n).isSome :=
  any_find (nm := fun x : Constraint => x.constraintName) _ n

section
variable {t : Table} (h : TableOk t)
include h

theorem nodup_columns : ((liveColumns t).map fun x => x.columnName).Nodup := nodup_filter h.columns _
theorem nodup_indexes : ((liveIndexes t).map fun x => x.indexName).Nodup := nodup_filter h.indexes _
theorem nodup_constraints : ((liveConstraints t).map fun x => x.constraintName).Nodup :=
  nodup_filter h.constraints _

theorem named {c : Constraint} (hc : c ∈ liveConstraints t) : c.constraintName ≠ [] :=
  h.named c (List.mem_filter.1 hc).1

end

/-! ## Constraints -/

theorem isF_conOf {d : Dialect} (cur : Str) (c : Constraint) : isF (conOf d cur c) = foreignKey c := by
  unfold isF conOf kindOf foreignKey
  have h1 : b!"PRIMARY KEY" ≠ b!"FOREIGN KEY" := by decide
  have h2 : b!"UNIQUE" ≠ b!"FOREIGN KEY" := by decide
  dsimp only
  by_cases e1 : c.constraintType = b!"PRIMARY KEY"
  · rw [if_pos e1, e1]; rfl
  · rw [if_neg e1]
    by_cases e2 : c.constraintType = b!"UNIQUE"
    · rw [if_pos e2, e2]; rfl
    · rw [if_neg e2]
      by_cases e3 : c.constraintType = b!"FOREIGN KEY"
      · rw [if_pos e3, e3]; rfl
      · rw [if_neg e3]
        have : (c.constraintType == FOREIGN_KEY) = false :=
          beq_eq_false_iff_ne.2 e3
        rw [this]
        by_cases e4 : c.constraintType = b!"CHECK"
        · rw [if_pos e4]
        · rw [if_neg e4]

theorem conId_conOf (cur : Str) (c : Constraint) (hn : c.constraintName ≠ [])
    (hp : c.constraintType = b!"PRIMARY KEY" → c.constraintName = b!"PRIMARY") :
    conId (conOf .mysql cur c) = c.constraintName := by
  unfold conId conOf kindOf
  dsimp only
  by_cases e1 : c.constraintType = b!"PRIMARY KEY"
  · rw [if_pos e1, hp e1]
  · rw [if_neg e1]
    have : (if c.constraintName = [] ∨ Dialect.mysql = .mysql ∧ c.constraintType = b!"PRIMARY KEY"
        then none else some c.constraintName) = some c.constraintName := by
      rw [if_neg]; rintro (h | h)
      · exact hn h
      · exact e1 h.2
    rw [this]
    by_cases e2 : c.constraintType = b!"UNIQUE"
    · rw [if_pos e2]; rfl
    · rw [if_neg e2]
      by_cases e3 : c.constraintType = b!"FOREIGN KEY"
      · rw [if_pos e3]; rfl
      · rw [if_neg e3]
        by_cases e4 : c.constraintType = b!"CHECK"
        · rw [if_pos e4]; rfl
        · rw [if_neg e4]; rfl

theorem key_not_foreign {c : Constraint} (h : keyConstraint c = true) : foreignKey c = false := by
  unfold keyConstraint at h
  unfold foreignKey
  simp only [Bool.or_eq_true, beq_iff_eq] at h
  rcases h with h | h <;> rw [h] <;> decide

theorem primary_key {c : Constraint} (h : c.constraintType = b!"PRIMARY KEY") :
    keyConstraint c = true := by
  unfold keyConstraint
  rw [h]; decide

/-! ## What is reached -/

/-- The column that a common column becomes. -/
def pickCol (coll : Str) (a b : Column) : Col :=
  if columnsAreDifferent .mysql coll a b then colOf .mysql coll false b
  else colOf .mysql coll false a

/-- The columns that a common table gets. -/
def goalCol (coll : Str) (drop : Bool) (s t : Table) (n : Str) : Option Col :=
  match (liveColumns t).find? (fun x => x.columnName == n),
    (liveColumns s).find? (fun x => x.columnName == n) with
  | some b, none => some (colOf .mysql coll false b)
  | some b, some a => some (pickCol coll a b)
  | none, none => none
  | none, some a => if drop then none else some (colOf .mysql coll false a)

/-- What a common table becomes. -/
def goalTbl (cur coll : Str) (drop : Bool) (s t : Table) : Tbl where
  col := goalCol coll drop s t
  con n := newer drop ((tblOf cur coll s).con n) ((tblOf cur coll t).con n)
  idx n := newer drop ((tblOf cur coll s).idx n) ((tblOf cur coll t).idx n)

/-- What is asked of two versions of a table; see `Comparable`. -/
structure PairOk (cur : Str) (drop : Bool) (s t : Table) : Prop where
  src : TableOk s
  dest : TableOk t
  srcPrimary : ∀ x ∈ liveConstraints s, x.constraintType = b!"PRIMARY KEY" →
    x.constraintName = b!"PRIMARY"
  destPrimary : ∀ x ∈ liveConstraints t, x.constraintType = b!"PRIMARY KEY" →
    x.constraintName = b!"PRIMARY"
  constraints : ∀ q ∈ commonConstraints s t,
    conOf .mysql cur q.1 = conOf .mysql cur q.2 ∨
    (q.1.constraintType = b!"PRIMARY KEY" ∧ rekeyed q = true)
  indexes : ∀ x ∈ liveIndexes s, ∀ y ∈ liveIndexes t,
    x.indexName = y.indexName → idxOf .mysql cur false true x = idxOf .mysql cur false true y
  checks : ∀ x ∈ liveConstraints t, keyConstraint x = false →
    foreignKey x = false → hasConstraint s x.constraintName = true
  surplusChecks : drop = true → ∀ x ∈ liveConstraints s,
    keyConstraint x = false → foreignKey x = false → hasConstraint t x.constraintName = true
  surplusColumns : drop = true → ∀ x ∈ liveColumns s,
    hasColumn t x.columnName = false → Touched drop s t

/-- The changes of a table, in terms of the two tables. -/
structure Changes (coll : Str) (drop : Bool) (s t : Table) (a : AlterTable) : Prop where
  destTable : a.destTable = t
  dropConstraints : a.dropConstraints =
    (if drop then (liveConstraints s).filter fun c =>
        keyConstraint c && !hasConstraint t c.constraintName else []) ++
      ((commonConstraints s t).filter rekeyed).map (·.1)
  dropIndexes : a.dropIndexes =
    if drop then (liveIndexes s).filter fun x => !hasIndex t x.indexName else []
  dropColumns : a.dropColumns =
    if drop then (liveColumns s).filter fun x => !hasColumn t x.columnName else []
  addColumns : a.addColumns = (liveColumns t).filter fun x => !hasColumn s x.columnName
  alterColumns : a.alterColumns =
    (commonColumns s t).filter fun p => columnsAreDifferent .mysql coll p.1 p.2
  createIndexes : a.createIndexes = (liveIndexes t).filter fun x => !hasIndex s x.indexName
  addConstraints : a.addConstraints = (liveConstraints t).filter fun c =>
    match (liveConstraints s).find? fun x => x.constraintName == c.constraintName with
    | none => keyConstraint c
    | some x => rekeyed (x, c)

theorem changes {src dest : Catalog} (hsrc : Ok src) (hdest : Ok dest) (drop : Bool)
    {p : Table × Table} (hp : p ∈ commonTables src dest) :
    Changes src.defaultCollation drop p.1 p.2 (mysqlAlterTable (diffEnv src dest drop) p.1 p.2) where
  destTable := rfl
  dropConstraints := by
    have h1 := surplusConstraints_eq hdest (inCatalog_live (mem_commonTables hp).2.1) p.1
    have h2 := commonConstraints_eq hsrc (inCatalog_live (mem_commonTables hp).1) p.2
    show whenDrop _ ((surplusConstraints (newCatalogCache dest) p.1 p.2).filter Sqddl.isKey) ++
      ((Sqddl.commonConstraints (newCatalogCache src) p.1 p.2).filter pkeyChanged).map (·.1) = _
    rw [h1, h2, List.filter_filter, whenDrop]
    simp only [isKey_eq, funext pkeyChanged_eq]
    rfl
  dropIndexes := by
    have h := surplusIndexes_eq hdest (inCatalog_live (mem_commonTables hp).2.1) p.1
    show whenDrop _ (surplusIndexes (newCatalogCache dest) p.1 p.2) = _
    rw [h]; rfl
  dropColumns := by
    have h := surplusColumns_eq hdest (inCatalog_live (mem_commonTables hp).2.1) p.1
    show whenDrop _ (surplusColumns (newCatalogCache dest) p.1 p.2) = _
    rw [h]; rfl
  addColumns := missingColumns_eq hsrc (inCatalog_live (mem_commonTables hp).1) p.2
  alterColumns := by
    show (Sqddl.commonColumns (newCatalogCache src) p.1 p.2).filter _ = _
    rw [commonColumns_eq hsrc (inCatalog_live (mem_commonTables hp).1) p.2]
    rfl
  createIndexes := missingIndexes_eq hsrc (inCatalog_live (mem_commonTables hp).1) p.2
  addConstraints := by
    obtain ⟨s, hs, ht⟩ := inCatalog_live (mem_commonTables hp).1
    show mysqlAddConstraints (diffEnv src dest drop) p.1 p.2 = _
    unfold mysqlAddConstraints liveConstraints
    rw [List.filter_filter]
    congr 1
    funext c
    have := getConstraint_find hsrc hs ht c.constraintName
    show (!c.ignore && match ((newCatalogCache src).getConstraint p.1 c.constraintName).toOption with
      | none => Sqddl.isKey c
      | some s => pkeyChanged (s, c)) = _
    rw [this, Bool.and_comm]
    unfold liveConstraints
    cases (List.filter (fun x => !x.ignore) p.1.constraints).find? fun x =>
      x.constraintName == c.constraintName with
    | none => simp only [isKey_eq]
    | some x => simp only [pkeyChanged_eq]

section
variable {cur coll : Str} {drop : Bool} {s t : Table} (h : PairOk cur drop s t)

/-- Pairs of constraints of the same name. -/
theorem mem_commonConstraints_iff (h1 : TableOk t) {q : Constraint × Constraint} :
    q ∈ commonConstraints s t ↔ ∃ n, (liveConstraints s).find? (fun x => x.constraintName == n) =
      some q.1 ∧ (liveConstraints t).find? (fun x => x.constraintName == n) = some q.2 := by
  simp only [CatalogSpec.commonConstraints, List.mem_filterMap, Option.map_eq_some_iff]
  constructor
  · rintro ⟨x, hx, y, hy, rfl⟩
    exact ⟨x.constraintName, hy, find?_self (nodup_constraints h1) hx⟩
  · rintro ⟨n, h2, h3⟩
    obtain ⟨h4, h5⟩ := find_some h3
    subst h5
    exact ⟨q.2, h4, q.1, h2, rfl⟩

/-- Pairs of columns of the same name. -/
theorem mem_commonColumns_iff (h1 : TableOk t) {q : Column × Column} :
    q ∈ commonColumns s t ↔ ∃ n, (liveColumns s).find? (fun x => x.columnName == n) =
      some q.1 ∧ (liveColumns t).find? (fun x => x.columnName == n) = some q.2 := by
  simp only [CatalogSpec.commonColumns, List.mem_filterMap, Option.map_eq_some_iff]
  constructor
  · rintro ⟨x, hx, y, hy, rfl⟩
    exact ⟨x.columnName, hy, find?_self (nodup_columns h1) hx⟩
  · rintro ⟨n, h2, h3⟩
    obtain ⟨h4, h5⟩ := find_some h3
    subst h5
    exact ⟨q.2, h4, q.1, h2, rfl⟩

include h in
theorem common_con {n : Str} {x y : Constraint}
    (h1 : (liveConstraints s).find? (fun c => c.constraintName == n) = some x)
    (h2 : (liveConstraints t).find? (fun c => c.constraintName == n) = some y) :
    (rekeyed (x, y) = false ∧ conOf .mysql cur x = conOf .mysql cur y) ∨
    (rekeyed (x, y) = true ∧ keyConstraint x = true ∧ keyConstraint y = true) := by
  have hq := h.constraints (x, y) ((mem_commonConstraints_iff h.dest).2 ⟨n, h1, h2⟩)
  cases hr : rekeyed (x, y) with
  | false =>
    rw [hr] at hq
    rcases hq with hq | ⟨_, hq⟩
    · exact Or.inl ⟨rfl, hq⟩
    · cases hq
  | true =>
    right
    refine ⟨rfl, ?_, ?_⟩
    · rcases hq with hq | ⟨hq, _⟩
      · exfalso
        unfold rekeyed at hr
        simp only [Bool.and_eq_true, beq_iff_eq, bne_iff_ne] at hr
        have hk : (conOf .mysql cur x).kind = (conOf .mysql cur y).kind := by rw [hq]
        unfold conOf kindOf at hk
        dsimp only at hk
        rw [if_pos (show y.constraintType = b!"PRIMARY KEY" from hr.1)] at hk
        by_cases e1 : x.constraintType = b!"PRIMARY KEY"
        · rw [if_pos e1] at hk
          injection hk with hk
          exact hr.2 (by rw [hk])
        · rw [if_neg e1] at hk
          repeat' split at hk
          all_goals cases hk
      · exact primary_key hq
    · unfold rekeyed at hr
      simp only [Bool.and_eq_true, beq_iff_eq] at hr
      exact primary_key hr.1

theorem find_commonColumns (h1 : TableOk t) (p : Column × Column → Bool) (n : Str) :
    ((commonColumns s t).filter p).find? (fun q => q.2.columnName == n) =
      match (liveColumns s).find? (fun x => x.columnName == n),
        (liveColumns t).find? (fun x => x.columnName == n) with
      | some a, some b => if p (a, b) then some (a, b) else none
      | _, _ => none := by
  symm
  refine find?_eq_of_unique fun q => ?_
  rw [List.mem_filter, mem_commonColumns_iff h1]
  constructor
  · intro h
    split at h
    · rename_i a b ha hb
      split at h
      · cases h
        exact ⟨⟨⟨n, ha, hb⟩, by assumption⟩, by simpa using (find_some hb).2⟩
      · cases h
    · cases h
  · rintro ⟨⟨⟨m, ha, hb⟩, hp⟩, hn⟩
    have h2 := (find_some hb).2
    have h3 : q.2.columnName = n := by simpa using hn
    have h4 : m = n := by rw [← h2, ← h3]
    subst h4
    rw [ha, hb]
    simp [hp]

theorem nodup_commonColumns (h1 : TableOk t) (p : Column × Column → Bool) :
    (((commonColumns s t).filter p).map fun q => q.2.columnName).Nodup := by
  refine ((nodup_columns h1).sublist ?_)
  refine (List.filter_sublist.map _).trans ?_
  unfold CatalogSpec.commonColumns
  generalize liveColumns t = ys
  induction ys with
  | nil => exact List.Sublist.refl _
  | cons y ys ih =>
    rw [List.filterMap_cons]
    cases (liveColumns s).find? fun x => x.columnName == y.columnName with
    | none => exact ih.trans (List.sublist_cons_self ..)
    | some x => exact ih.cons_cons _

theorem nodup_commonConstraints (h1 : TableOk t) (p : Constraint × Constraint → Bool) :
    ((((commonConstraints s t).filter p).map (·.1)).map fun c => c.constraintName).Nodup := by
  refine ((nodup_constraints h1).sublist ?_)
  rw [List.map_map]
  refine (List.filter_sublist.map _).trans ?_
  unfold CatalogSpec.commonConstraints
  generalize liveConstraints t = ys
  induction ys with
  | nil => exact List.Sublist.refl _
  | cons y ys ih =>
    rw [List.filterMap_cons]
    cases e : (liveConstraints s).find? fun x => x.constraintName == y.constraintName with
    | none => exact ih.trans (List.sublist_cons_self ..)
    | some x =>
      have := (find_some e).2
      simp only [Option.map_some, List.map_cons, Function.comp_def, this] at ih ⊢
      exact ih.cons_cons _

theorem mem_rekeyed (h1 : TableOk t) (n : Str) :
    n ∈ ((((commonConstraints s t).filter rekeyed).map (·.1)).map fun c => c.constraintName) ↔
      ∃ x y, (liveConstraints s).find? (fun c => c.constraintName == n) = some x ∧
        (liveConstraints t).find? (fun c => c.constraintName == n) = some y ∧
        rekeyed (x, y) = true := by
  simp only [List.mem_map, List.mem_filter, mem_commonConstraints_iff h1]
  constructor
  · rintro ⟨c, ⟨q, ⟨⟨m, ha, hb⟩, hr⟩, rfl⟩, rfl⟩
    have := (find_some ha).2
    rw [this]
    exact ⟨q.1, q.2, ha, hb, hr⟩
  · rintro ⟨x, y, ha, hb, hr⟩
    exact ⟨x, ⟨(x, y), ⟨⟨n, ha, hb⟩, hr⟩, rfl⟩, (find_some ha).2⟩

include h in
/-- The ALTER TABLE of a table makes it what it is to become. -/
theorem acts_alter {a : AlterTable} (ha : Changes coll drop s t a) {lT lS : Str → Bool}
    (hT : ∀ n x, (liveConstraints s).find? (fun c => c.constraintName == n) = some x →
      lT n = (drop && ((liveConstraints t).find? fun c => c.constraintName == n).isNone))
    (hS : ∀ n, lS n = ((liveConstraints s).find? fun c => c.constraintName == n).isNone) :
    acts ((tblOf cur coll s).cut lT) (alterActions .mysql cur coll a) =
      some ((goalTbl cur coll drop s t).cut lS) := by
  unfold alterActions
  have m1 : a.dropConstraints.map (fun c => Action.dropConstraint c.constraintName) =
      (a.dropConstraints.map fun c => c.constraintName).map .dropConstraint := by
    rw [List.map_map]; rfl
  have m2 : a.dropIndexes.map (fun c => Action.dropIndex c.indexName) =
      (a.dropIndexes.map fun c => c.indexName).map .dropIndex := by
    rw [List.map_map]; rfl
  have m3 : a.dropColumns.map (fun c => Action.dropColumn c.columnName) =
      (a.dropColumns.map fun c => c.columnName).map .dropColumn := by
    rw [List.map_map]; rfl
  have m4 : a.addColumns.map (fun c => Action.addColumn (colOf .mysql coll false c)) =
      (a.addColumns.map (colOf .mysql coll false)).map .addColumn := by
    rw [List.map_map]; rfl
  have m5 : a.alterColumns.map (fun p => Action.modifyColumn (colOf .mysql coll false p.2)) =
      (a.alterColumns.map fun p => colOf .mysql coll false p.2).map .modifyColumn := by
    rw [List.map_map]; rfl
  have m6 : a.createIndexes.map (fun x => Action.addIndex (idxOf .mysql cur false true x)) =
      (a.createIndexes.map (idxOf .mysql cur false true)).map .addIndex := by
    rw [List.map_map]; rfl
  have m7 : a.addConstraints.map (fun c => Action.addConstraint (conOf .mysql cur c)) =
      (a.addConstraints.map (conOf .mysql cur)).map .addConstraint := by
    rw [List.map_map]; rfl
  rw [m1, m2, m3, m4, m5, m6, m7]
  -- the names of the constraints that are dropped
  have n1 : ∀ n, n ∈ (a.dropConstraints.map fun c => c.constraintName) ↔
      (drop = true ∧ ∃ x, (liveConstraints s).find? (fun c => c.constraintName == n) = some x ∧
        keyConstraint x = true ∧
        (liveConstraints t).find? (fun c => c.constraintName == n) = none) ∨
      ∃ x y, (liveConstraints s).find? (fun c => c.constraintName == n) = some x ∧
        (liveConstraints t).find? (fun c => c.constraintName == n) = some y ∧
        rekeyed (x, y) = true := by
    intro n
    rw [ha.dropConstraints, List.map_append, List.mem_append, mem_rekeyed h.dest]
    apply or_congr _ Iff.rfl
    cases drop with
    | false => simp
    | true =>
      rw [if_pos rfl, mem_filter_names (nodup_constraints h.src)]
      simp only [true_and, Bool.and_eq_true, Bool.not_eq_true', hasConstraint_find]
      constructor
      · rintro ⟨x, h1, h2, h3⟩
        rw [(find_some h1).2] at h3
        exact ⟨x, h1, h2, by simpa using h3⟩
      · rintro ⟨x, h1, h2, h3⟩
        refine ⟨x, h1, h2, ?_⟩
        rw [(find_some h1).2, h3]; rfl
  have n1d : (a.dropConstraints.map fun c => c.constraintName).Nodup := by
    rw [ha.dropConstraints, List.map_append, List.nodup_append]
    refine ⟨?_, nodup_commonConstraints h.dest _, ?_⟩
    · cases drop with
      | false => simp
      | true => rw [if_pos rfl]; exact nodup_filter (nodup_constraints h.src) _
    · intro x hx y hy e
      subst e
      rw [mem_rekeyed h.dest] at hy
      obtain ⟨u, v, h1, h2, h3⟩ := hy
      cases drop with
      | false => simp at hx
      | true =>
        rw [if_pos rfl, mem_filter_names (nodup_constraints h.src)] at hx
        obtain ⟨w, h4, h5⟩ := hx
        simp only [Bool.and_eq_true, Bool.not_eq_true', hasConstraint_find] at h5
        rw [(find_some h4).2, h2] at h5
        simp at h5
  have k1 : ∀ n ∈ (a.dropConstraints.map fun c => c.constraintName),
      ∃ x, (liveConstraints s).find? (fun c => c.constraintName == n) = some x ∧
        foreignKey x = false := by
    intro n hn
    rcases (n1 n).1 hn with ⟨_, x, h1, h2, _⟩ | ⟨x, y, h1, h2, h3⟩
    · exact ⟨x, h1, key_not_foreign h2⟩
    · rcases common_con h h1 h2 with ⟨h4, _⟩ | ⟨_, h4, _⟩
      · rw [h3] at h4; cases h4
      · exact ⟨x, h1, key_not_foreign h4⟩
  have scon : ∀ n, ((tblOf cur coll s).cut lT).con n =
      ((liveConstraints s).find? fun c => c.constraintName == n).bind fun x =>
        if foreignKey x && (drop &&
          ((liveConstraints t).find? fun c => c.constraintName == n).isNone) then none
        else some (conOf .mysql cur x) := by
    intro n
    show Option.filter _ (Option.map _ _) = _
    cases e : (liveConstraints s).find? fun c => c.constraintName == n with
    | none => rfl
    | some x =>
      rw [Option.map_some, Option.filter_some, isF_conOf, hT n x e, Option.bind_some]
      cases foreignKey x && (drop &&
          ((liveConstraints t).find? fun c => c.constraintName == n).isNone) <;> rfl
  rw [List.append_assoc, List.append_assoc, List.append_assoc, List.append_assoc, List.append_assoc]
  rw [acts_append _ _ _ _ (acts_dropConstraints _ _ n1d (by
    intro n hn
    obtain ⟨x, h1, h2⟩ := k1 n hn
    rw [scon, h1]
    simp [h2]))]
  -- indexes
  have n2 : ∀ n, n ∈ (a.dropIndexes.map fun c => c.indexName) ↔
      drop = true ∧ ∃ x, (liveIndexes s).find? (fun c => c.indexName == n) = some x ∧
        (liveIndexes t).find? (fun c => c.indexName == n) = none := by
    intro n
    rw [ha.dropIndexes]
    cases drop with
    | false => simp
    | true =>
      rw [if_pos rfl, mem_filter_names (nodup_indexes h.src)]
      simp only [true_and, Bool.not_eq_true', hasIndex_find]
      constructor
      · rintro ⟨x, h1, h3⟩
        rw [(find_some h1).2] at h3
        exact ⟨x, h1, by simpa using h3⟩
      · rintro ⟨x, h1, h3⟩
        refine ⟨x, h1, ?_⟩
        rw [(find_some h1).2, h3]; rfl
  have n2d : (a.dropIndexes.map fun c => c.indexName).Nodup := by
    rw [ha.dropIndexes]
    cases drop with
    | false => simp
    | true => rw [if_pos rfl]; exact nodup_filter (nodup_indexes h.src) _
  rw [acts_append _ _ _ _ (acts_dropIndexes _ _ n2d (by
    intro n hn
    obtain ⟨_, x, h1, _⟩ := (n2 n).1 hn
    show (Option.map _ _).isSome = true
    rw [h1]; rfl))]
  dsimp only
  -- columns
  have n3 : ∀ n, n ∈ (a.dropColumns.map fun c => c.columnName) ↔
      drop = true ∧ ∃ x, (liveColumns s).find? (fun c => c.columnName == n) = some x ∧
        (liveColumns t).find? (fun c => c.columnName == n) = none := by
    intro n
    rw [ha.dropColumns]
    cases drop with
    | false => simp
    | true =>
      rw [if_pos rfl, mem_filter_names (nodup_columns h.src)]
      simp only [true_and, Bool.not_eq_true', hasColumn_find]
      constructor
      · rintro ⟨x, h1, h3⟩
        rw [(find_some h1).2] at h3
        exact ⟨x, h1, by simpa using h3⟩
      · rintro ⟨x, h1, h3⟩
        refine ⟨x, h1, ?_⟩
        rw [(find_some h1).2, h3]; rfl
  have n3d : (a.dropColumns.map fun c => c.columnName).Nodup := by
    rw [ha.dropColumns]
    cases drop with
    | false => simp
    | true => rw [if_pos rfl]; exact nodup_filter (nodup_columns h.src) _
  rw [acts_append _ _ _ _ (acts_dropColumns _ _ n3d (by
    intro n hn
    obtain ⟨_, x, h1, _⟩ := (n3 n).1 hn
    show (Option.map _ _).isSome = true
    rw [h1]; rfl))]
  dsimp only
  have f4 : ∀ n, a.addColumns.find? (fun c => c.columnName == n) =
      if ((liveColumns s).find? fun c => c.columnName == n).isSome then none
      else (liveColumns t).find? fun c => c.columnName == n := by
    intro n
    rw [ha.addColumns, find_filter (nodup_columns h.dest)]
    cases e : (liveColumns t).find? fun c => c.columnName == n with
    | none => simp
    | some x =>
      rw [Option.filter_some, hasColumn_find, (find_some e).2]
      cases (liveColumns s).find? fun c => c.columnName == n <;> simp
  have n4d : ((a.addColumns.map (colOf .mysql coll false)).map fun c => c.name).Nodup := by
    rw [List.map_map, ha.addColumns]
    exact nodup_filter (nodup_columns h.dest) _
  rw [acts_append _ _ _ _ (acts_addColumns _ _ n4d (by
    intro c hc
    simp only [List.mem_map] at hc
    obtain ⟨x, hx, rfl⟩ := hc
    have hx' := hx
    rw [ha.addColumns, List.mem_filter, hasColumn_find] at hx
    rw [show (colOf .mysql coll false x).name = x.columnName from rfl]
    dsimp only
    rw [show ((tblOf cur coll s).cut lT).col x.columnName =
        ((liveColumns s).find? fun c => c.columnName == x.columnName).map (colOf .mysql coll false)
        from rfl]
    have : (liveColumns s).find? (fun c => c.columnName == x.columnName) = none := by
      simpa using hx.2
    rw [this]; simp))]
  dsimp only
  -- what the columns are before they are modified
  have c4 : ∀ n, puts (fun c : Col => c.name)
      (fun n => if n ∈ (a.dropColumns.map fun c => c.columnName) then none
        else ((tblOf cur coll s).cut lT).col n) (a.addColumns.map (colOf .mysql coll false)) n =
      match (liveColumns s).find? (fun c => c.columnName == n),
        (liveColumns t).find? (fun c => c.columnName == n) with
      | none, some b => some (colOf .mysql coll false b)
      | some x, some _ => some (colOf .mysql coll false x)
      | none, none => none
      | some x, none => if drop then none else some (colOf .mysql coll false x) := by
    intro n
    rw [puts_map (nm := fun c : Column => c.columnName) (mn := fun c : Col => c.name)
      (colOf .mysql coll false) (fun _ _ => rfl), f4]
    have hm := n3 n
    have hs : ((tblOf cur coll s).cut lT).col n =
      ((liveColumns s).find? fun c => c.columnName == n).map (colOf .mysql coll false) := rfl
    rw [hs]
    cases e1 : (liveColumns s).find? (fun c => c.columnName == n) with
    | none =>
      cases e2 : (liveColumns t).find? (fun c => c.columnName == n) <;> simp
    | some x =>
      cases e2 : (liveColumns t).find? (fun c => c.columnName == n) with
      | some y =>
        have hnot : n ∉ (a.dropColumns.map fun c => c.columnName) := by
          rw [hm, e2]; simp
        rw [if_neg hnot]
        rfl
      | none =>
        rw [e1, e2] at hm
        simp only [Option.some.injEq, and_true, exists_eq'] at hm
        cases drop <;> simp_all
  have n5d : ((a.alterColumns.map fun p => colOf .mysql coll false p.2).map fun c => c.name).Nodup := by
    rw [List.map_map, ha.alterColumns]
    exact nodup_commonColumns h.dest _
  rw [acts_append _ _ _ _ (acts_modifyColumns _ _ n5d (by
    intro c hc
    simp only [List.mem_map] at hc
    obtain ⟨q, hq, rfl⟩ := hc
    rw [ha.alterColumns, List.mem_filter, mem_commonColumns_iff h.dest] at hq
    obtain ⟨⟨n, h1, h2⟩, _⟩ := hq
    have e : (colOf .mysql coll false q.2).name = n := (find_some h2).2
    dsimp only
    rw [e, c4 n, h1, h2]; rfl))]
  dsimp only
  -- indexes that are added
  have f6 : ∀ n, a.createIndexes.find? (fun c => c.indexName == n) =
      if ((liveIndexes s).find? fun c => c.indexName == n).isSome then none
      else (liveIndexes t).find? fun c => c.indexName == n := by
    intro n
    rw [ha.createIndexes, find_filter (nodup_indexes h.dest)]
    cases e : (liveIndexes t).find? fun c => c.indexName == n with
    | none => simp
    | some x =>
      rw [Option.filter_some, hasIndex_find, (find_some e).2]
      cases (liveIndexes s).find? fun c => c.indexName == n <;> simp
  have n6d : ((a.createIndexes.map (idxOf .mysql cur false true)).map fun c => c.name).Nodup := by
    rw [List.map_map, ha.createIndexes]
    exact nodup_filter (nodup_indexes h.dest) _
  rw [acts_append _ _ _ _ (acts_addIndexes _ _ n6d (by
    intro c hc
    simp only [List.mem_map] at hc
    obtain ⟨x, hx, rfl⟩ := hc
    rw [ha.createIndexes, List.mem_filter, hasIndex_find] at hx
    rw [show (idxOf .mysql cur false true x).name = x.indexName from rfl]
    dsimp only
    rw [show ((tblOf cur coll s).cut lT).idx x.indexName =
        ((liveIndexes s).find? fun c => c.indexName == x.indexName).map
          (idxOf .mysql cur false true) from rfl]
    have : (liveIndexes s).find? (fun c => c.indexName == x.indexName) = none := by
      simpa using hx.2
    rw [this]; simp) (by
    intro c hc
    simp only [List.mem_map] at hc
    obtain ⟨x, hx, rfl⟩ := hc
    rfl))]
  dsimp only
  -- constraints that are added
  have f7 : ∀ n, a.addConstraints.find? (fun c => c.constraintName == n) =
      ((liveConstraints t).find? fun c => c.constraintName == n).filter fun c =>
        match (liveConstraints s).find? fun x => x.constraintName == n with
        | none => keyConstraint c
        | some x => rekeyed (x, c) := by
    intro n
    rw [ha.addConstraints, find_filter (nodup_constraints h.dest)]
    cases e : (liveConstraints t).find? fun c => c.constraintName == n with
    | none => rfl
    | some x => rw [Option.filter_some, Option.filter_some, (find_some e).2]
  have i7 : ∀ c ∈ a.addConstraints, conId (conOf .mysql cur c) = c.constraintName := by
    intro c hc
    rw [ha.addConstraints] at hc
    have := (List.mem_filter.1 hc).1
    exact conId_conOf cur c (named h.dest this) (h.destPrimary c this)
  have n7d : ((a.addConstraints.map (conOf .mysql cur)).map conId).Nodup := by
    rw [List.map_map]
    have : a.addConstraints.map (conId ∘ conOf .mysql cur) =
        a.addConstraints.map fun c => c.constraintName :=
      List.map_congr_left fun c hc => i7 c hc
    rw [this, ha.addConstraints]
    exact nodup_filter (nodup_constraints h.dest) _
  rw [acts_addConstraints _ _ n7d (by
    intro c hc
    simp only [List.mem_map] at hc
    obtain ⟨x, hx, rfl⟩ := hc
    rw [i7 x hx]
    dsimp only
    have hx2 := hx
    rw [ha.addConstraints, List.mem_filter] at hx2
    have ht := find?_self (nodup_constraints h.dest) hx2.1
    have hm := n1 x.constraintName
    rw [ht] at hm
    rw [scon, ht]
    cases e : (liveConstraints s).find? fun y => y.constraintName == x.constraintName with
    | none => simp
    | some y =>
      rw [e] at hm hx2
      simp only [Option.some.injEq, reduceCtorEq, and_false, exists_false, or_false, false_or] at hm
      rw [if_pos (hm.2 ⟨y, x, rfl, rfl, hx2.2⟩)])]
  -- the result
  rw [Option.some.injEq]
  refine Tbl.ext ?_ ?_ ?_
  · funext n
    show puts _ _ _ n = goalCol coll drop s t n
    have := puts_map (xs := a.alterColumns) (nm := fun p : Column × Column => p.2.columnName)
      (mn := fun c : Col => c.name) (fun p => colOf .mysql coll false p.2) (fun _ _ => rfl)
    rw [this, c4, ha.alterColumns, find_commonColumns h.dest]
    unfold goalCol pickCol
    cases (liveColumns s).find? (fun c => c.columnName == n) with
    | none => cases (liveColumns t).find? (fun c => c.columnName == n) <;> rfl
    | some x =>
      cases (liveColumns t).find? (fun c => c.columnName == n) with
      | none => rfl
      | some y =>
        dsimp only
        cases columnsAreDifferent .mysql coll x y <;> rfl
  · funext n
    show puts _ _ _ n = Option.filter _ (newer drop (Option.map _ _) (Option.map _ _))
    have hp := puts_map (xs := a.addConstraints) (nm := fun c : Constraint => c.constraintName)
      (mn := conId) (conOf .mysql cur) i7
    rw [hp, f7]
    dsimp only
    rw [scon]
    have hm := n1 n
    have hl := hS n
    cases e1 : (liveConstraints s).find? (fun c => c.constraintName == n) with
    | none =>
      rw [e1] at hl hm
      simp only [reduceCtorEq, false_and, exists_false, and_false, or_false, iff_false] at hm
      cases e2 : (liveConstraints t).find? (fun c => c.constraintName == n) with
      | none => cases drop <;> simp [newer]
      | some y =>
        simp only [Option.filter_some, Option.map_some, newer, isF_conOf, hl, Option.isNone_none,
          Bool.and_true]
        cases hk : keyConstraint y with
        | true => simp [key_not_foreign hk]
        | false =>
          cases hf : foreignKey y with
          | true => simp
          | false =>
            have := h.checks y (find_some e2).1 hk hf
            rw [hasConstraint_find, (find_some e2).2, e1] at this
            cases this
    | some x =>
      rw [e1] at hl
      cases e2 : (liveConstraints t).find? (fun c => c.constraintName == n) with
      | none =>
        rw [e1, e2] at hm
        simp only [Option.some.injEq, reduceCtorEq, false_and, and_false, exists_false, or_false,
          and_true] at hm
        simp only [Option.filter_none, Option.map_some, Option.map_none, newer, Option.bind_some,
          Option.isNone_none, Bool.and_true]
        cases drop with
        | false =>
          simp only [Bool.false_eq_true, false_and, iff_false] at hm
          rw [if_neg hm]
          simp [hl, isF_conOf, Option.filter_some]
        | true =>
          simp only [true_and] at hm
          cases hk : keyConstraint x with
          | true =>
            rw [if_pos (hm.2 ⟨x, rfl, hk⟩)]
            simp
          | false =>
            cases hf : foreignKey x with
            | true => simp
            | false =>
              have := h.surplusChecks rfl x (find_some e1).1 hk hf
              rw [hasConstraint_find, (find_some e1).2, e2] at this
              cases this
      | some y =>
        rw [e1, e2] at hm
        simp only [reduceCtorEq, and_false, exists_false, false_or,
          Option.some.injEq] at hm
        rcases common_con h e1 e2 with ⟨h4, h5⟩ | ⟨h4, h5, h6⟩
        · have hnot : n ∉ (a.dropConstraints.map fun c => c.constraintName) := by
            rw [hm]; rintro ⟨x', y', rfl, rfl, h7⟩
            rw [h4] at h7; cases h7
          rw [if_neg hnot]
          simp [h4, newer, hl, h5, Option.filter_some]
        · simp [h4, newer, isF_conOf, key_not_foreign h6, Option.filter_some]
  · funext n
    rw [show ((goalTbl cur coll drop s t).cut lS).idx n = newer drop
      (((liveIndexes s).find? fun c => c.indexName == n).map (idxOf .mysql cur false true))
      (((liveIndexes t).find? fun c => c.indexName == n).map (idxOf .mysql cur false true))
      from rfl]
    dsimp only
    have hp := puts_map (xs := a.createIndexes) (nm := fun c : Index => c.indexName)
      (mn := fun c : Idx => c.name) (idxOf .mysql cur false true) (fun _ _ => rfl)
    rw [hp, f6]
    have hm := n2 n
    have hs : ((tblOf cur coll s).cut lT).idx n =
      ((liveIndexes s).find? fun c => c.indexName == n).map (idxOf .mysql cur false true) := rfl
    rw [hs]
    cases e1 : (liveIndexes s).find? (fun c => c.indexName == n) with
    | none =>
      cases e2 : (liveIndexes t).find? (fun c => c.indexName == n) <;> cases drop <;> simp [newer]
    | some x =>
      cases e2 : (liveIndexes t).find? (fun c => c.indexName == n) with
      | some y =>
        have hnot : n ∉ (a.dropIndexes.map fun c => c.indexName) := by
          rw [hm, e2]; simp
        rw [if_neg hnot]
        have := h.indexes x (find_some e1).1 y (find_some e2).1
          ((find_some e1).2.trans (find_some e2).2.symm)
        simp [newer, this]
      | none =>
        rw [e1, e2] at hm
        simp only [Option.some.injEq, and_true, exists_eq'] at hm
        cases drop <;> simp_all [newer]

/-- Without a change that is noticed there is nothing to do. -/
theorem actions_nil (h1 : PairOk cur drop s t) {a : AlterTable} (ha : Changes coll drop s t a)
    (hc : a.alterConstraints = []) (hw : a.worthKeeping = false) :
    alterActions .mysql cur coll a = [] := by
  simp only [AlterTable.worthKeeping, Bool.or_eq_false_iff, Bool.not_eq_false', List.isEmpty_iff] at hw
  obtain ⟨⟨⟨⟨⟨⟨h2, h3⟩, h4⟩, h5⟩, _⟩, h6⟩, h7⟩ := hw
  have hd : a.dropColumns = [] := by
    rw [ha.dropColumns]
    cases hdrop : drop with
    | false => rfl
    | true =>
      rw [if_pos rfl, List.filter_eq_nil_iff]
      intro x hx hn
      have := h1.surplusColumns hdrop x hx (by simpa using hn)
      rw [ha.dropConstraints, List.append_eq_nil_iff, hdrop, if_pos rfl] at h2
      rw [ha.dropIndexes, hdrop, if_pos rfl] at h3
      rw [ha.addColumns] at h4
      rw [ha.createIndexes] at h6
      rw [ha.addConstraints] at h7
      rw [List.filter_eq_nil_iff] at h3 h4 h6 h7
      rw [List.filter_eq_nil_iff, List.map_eq_nil_iff, List.filter_eq_nil_iff] at h2
      rcases this with ⟨y, hy, e⟩ | ⟨y, hy, e⟩ | ⟨y, hy, e1, e2⟩ | ⟨q, hq, e⟩ |
        ⟨_, ⟨y, hy, e⟩ | ⟨y, hy, e1, e2⟩⟩
      · exact h4 y hy (by simp [e])
      · exact h6 y hy (by simp [e])
      · refine h7 y hy ?_
        rw [hasConstraint_find] at e2
        have : (liveConstraints s).find? (fun x => x.constraintName == y.constraintName) = none := by
          simpa using e2
        rw [this]; exact e1
      · exact h2.2 q hq e
      · exact h3 y hy (by simp [e])
      · exact h2.1 y hy (by simp [e1, e2])
  unfold alterActions
  rw [h2, h3, hd, h4, h5, h6, h7]
  rfl

end

end EngineSpec
