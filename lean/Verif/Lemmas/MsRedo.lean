import Verif.Lemmas.MsGoal

/-!
# The states on the way of a SQL Server migration
-/

namespace MsSpec
open SqlSpec Sqddl DdlText Sqddl.Sqlserver
open EngineSpec hiding tab tab_some tab_mem hasTable_tab hasTableConstraint_tab mem_common_iff
open MsText (Act Differs)
open PgSpec (tab tab_some tab_mem hasTable_tab hasTableConstraint_tab mem_common_iff foreign_not_primary)
open CatalogSpec (keyConstraint foreignKey liveColumns liveConstraints liveIndexes hasColumn hasIndex
  hasConstraint commonTables TableOk liveTables liveSchemas hasTable hasSchema hasTableConstraint)

/-- The foreign key is dropped and added again. -/
def redo (src dest : Catalog) (drop : Bool) (k : Key) (n : Str) : Bool :=
  (redone (diffEnv src dest drop) src dest).any fun f =>
    (f.1.tableSchema, f.1.tableName) == k && f.2.constraintName == n

/-- The first state on the way: foreign keys are dropped. -/
def stateA (e : Env) (drop : Bool) (src dest : Catalog) : Db :=
  (dbOf e.cur e.coll src).cut fun k n => lacks (endDb e drop src dest) k n || redo src dest drop k n

/-- The last state on the way: foreign keys are not added yet. -/
def stateB (e : Env) (drop : Bool) (src dest : Catalog) : Db :=
  (endDb e drop src dest).cut fun k n => lacks (dbOf e.cur e.coll src) k n || redo src dest drop k n

theorem idxNames_cols : ∀ {cs : List Str} {ds : List Bool},
    (∀ ts d, IdxCol.expr ts d ∉ idxColsOf .sqlserver cs ds) →
    (idxColsOf .sqlserver cs ds).filterMap (fun
      | .column c _ => some c
      | .expr _ _ => none) = cs
  | [], _, _ => rfl
  | c :: cs, ds, h => by
    unfold idxColsOf at h ⊢
    have h1 : isExpr c = false := by
      cases e : isExpr c with
      | false => rfl
      | true =>
        rw [e, if_pos rfl] at h
        exact absurd List.mem_cons_self (h _ _)
    rw [h1, if_neg (by decide)] at h ⊢
    rw [List.filterMap_cons]
    dsimp only
    rw [idxNames_cols fun ts d hm => h ts d (List.mem_cons_of_mem _ hm)]

section
variable {e : Env} {drop : Bool} {src dest : Catalog} (hcoll : e.coll = src.defaultCollation)
  (hs : Described src) (hd : Described dest) (hc : Comparable e.cur e.coll drop src dest)

include hcoll hs hd hc

theorem mem_redone {f : Table × Constraint} : f ∈ redone (diffEnv src dest drop) src dest ↔
    ∃ t, tab src (f.1.tableSchema, f.1.tableName) = some f.1 ∧
      tab dest (f.1.tableSchema, f.1.tableName) = some t ∧ f.2 ∈ liveConstraints f.1 ∧
      foreignKey f.2 = true ∧ goalCon e.cur drop f.1 t f.2.constraintName ≠ none ∧
      Hit e.coll f.1 t f.2.columns := by
  unfold redone
  rw [List.mem_flatMap]
  constructor
  · rintro ⟨p, hp, hf⟩
    obtain ⟨c, hc', rfl⟩ := List.mem_map.1 hf
    have hok := pairOk hs hd hc hp
    obtain ⟨k, h1, h2⟩ := (mem_common_iff hd.ok).1 hp
    have hk := (tab_some h1).2
    subst hk
    obtain ⟨q, hq, hc'⟩ := List.mem_flatMap.1 hc'
    obtain ⟨hc', hF⟩ := List.mem_filter.1 hc'
    rw [hcoll] at hok
    rw [alterColumns_eq hs.ok hp] at hq
    obtain ⟨h3, h4, h5⟩ := (mem_constraintDeps' hs.ok hd.ok hp hok).1 hc'
    refine ⟨p.2, h1, h2, h3, by rw [← isFkey_eq]; exact hF, h5, q, ?_, h4⟩
    rw [hcoll]; exact hq
  · obtain ⟨s, c⟩ := f
    rintro ⟨t, h1, h2, h3, h4, h5, q, h6, h7⟩
    have hp : (s, t) ∈ commonTables src dest := (mem_common_iff hd.ok).2 ⟨_, h1, h2⟩
    have hok := pairOk hs hd hc hp
    rw [hcoll] at hok h6
    refine ⟨(s, t), hp, List.mem_map.2 ⟨c, List.mem_flatMap.2 ⟨q, ?_, List.mem_filter.2 ⟨?_, ?_⟩⟩, rfl⟩⟩
    · rw [alterColumns_eq hs.ok hp]
      exact h6
    · exact (mem_constraintDeps' hs.ok hd.ok hp hok).2 ⟨h3, h7, h5⟩
    · rw [isFkey_eq]; exact h4

theorem redo_iff {k : Key} {n : Str} : redo src dest drop k n = true ↔
    ∃ s t x, tab src k = some s ∧ tab dest k = some t ∧ findCon s n = some x ∧ foreignKey x = true ∧
      goalCon e.cur drop s t n ≠ none ∧ Hit e.coll s t x.columns := by
  unfold redo
  rw [List.any_eq_true]
  constructor
  · rintro ⟨f, hf, h⟩
    simp only [Bool.and_eq_true, beq_iff_eq] at h
    obtain ⟨rfl, rfl⟩ := h
    obtain ⟨t, h1, h2, h3, h4, h5, h6⟩ := (mem_redone hcoll hs hd hc).1 hf
    have hok := pairOk hs hd hc (p := (f.1, t)) ((mem_common_iff hd.ok).2 ⟨_, h1, h2⟩)
    exact ⟨f.1, t, f.2, h1, h2, find_src hok h3, h4, h5, h6⟩
  · rintro ⟨s, t, x, h1, h2, h3, h4, h5, h6⟩
    have hk := (tab_some h1).2
    have hn := (find_some h3).2
    subst hk hn
    refine ⟨(s, x), (mem_redone hcoll hs hd hc).2 ⟨t, h1, h2, (find_some h3).1, h4, h5, h6⟩, ?_⟩
    simp

omit hcoll in
theorem fitsA {k : Key} {t : Tbl} (h : (stateA e drop src dest).table k = some t) :
    Fits (dbOf e.cur e.coll src) (endDb e drop src dest) (fun k n => redo src dest drop k n = true) k t := by
  obtain ⟨u, hu, rfl⟩ := dcut_table.1 h
  refine ⟨Or.inl (by rw [hu]; rfl), ?_, ?_, ?_, ?_⟩
  · intro n c cs ref h1 h2
    obtain ⟨h1, h3⟩ := cut_con.1 h1
    rw [(isF_iff c).2 ⟨cs, ref, h2⟩, Bool.true_and, Bool.or_eq_false_iff] at h3
    obtain ⟨g, d, h4, h5⟩ := lacks_false.1 h3.1
    refine ⟨⟨u, c, hu, h1, h2⟩, ⟨g, d, h4, h5, ?_⟩, by rw [h3.2]; decide⟩
    rw [← end_same hs hd hc hu h4 h1 h5]; exact h2
  · intro n c h1
    exact Or.inl ⟨u, hu, (cut_con.1 h1).1⟩
  · intro n x h1
    exact Or.inl ⟨u, hu, h1⟩
  · intro n c h1
    refine ⟨Or.inl ⟨u, hu, ?_⟩, fun h2 => Or.inl ⟨u, c, hu, h1, h2⟩⟩
    have h1 : u.col n = some c := h1
    rw [h1]; rfl

omit hcoll in
theorem fitsB {k : Key} {t : Tbl} (h : (stateB e drop src dest).table k = some t) :
    Fits (dbOf e.cur e.coll src) (endDb e drop src dest) (fun k n => redo src dest drop k n = true) k t := by
  obtain ⟨u, hu, rfl⟩ := dcut_table.1 h
  refine ⟨Or.inr (by rw [hu]; rfl), ?_, ?_, ?_, ?_⟩
  · intro n c cs ref h1 h2
    obtain ⟨h1, h3⟩ := cut_con.1 h1
    rw [(isF_iff c).2 ⟨cs, ref, h2⟩, Bool.true_and, Bool.or_eq_false_iff] at h3
    obtain ⟨g, d, h4, h5⟩ := lacks_false.1 h3.1
    refine ⟨⟨g, d, h4, h5, ?_⟩, ⟨u, c, hu, h1, h2⟩, by rw [h3.2]; decide⟩
    rw [end_same hs hd hc h4 hu h5 h1]; exact h2
  · intro n c h1
    exact Or.inr ⟨u, hu, (cut_con.1 h1).1⟩
  · intro n x h1
    exact Or.inr ⟨u, hu, h1⟩
  · intro n c h1
    refine ⟨Or.inr ⟨u, hu, ?_⟩, fun h2 => Or.inr ⟨u, c, hu, h1, h2⟩⟩
    have h1 : u.col n = some c := h1
    rw [h1]; rfl

omit hcoll in
theorem way : Way (dbOf e.cur e.coll src) (endDb e drop src dest) (stateA e drop src dest)
    (stateB e drop src dest) (fun k n => redo src dest drop k n = true) where
  schemaA := rfl
  schemaB := rfl
  tableA k := by show (Option.map _ _).isSome = _; simp
  tableB k := by show (Option.map _ _).isSome = _; simp
  old _ _ h := fitsA hs hd hc h
  new _ _ h := fitsB hs hd hc h

theorem renewed_redo {k : Key} {n : Str} {cs : List Str} {ref : Ref}
    (hf : Foreign (endDb e drop src dest) k n cs ref) (h : Renewed e.coll src dest k n) :
    redo src dest drop k n = true := by
  obtain ⟨p, hp, rfl, c, h1, h2, rfl, q, h3, h4, h5⟩ := h
  have hok := pairOk hs hd hc hp
  obtain ⟨k, h6, h7⟩ := (mem_common_iff hd.ok).1 hp
  have hk := (tab_some h6).2
  subst hk
  refine (redo_iff hcoll hs hd hc).2 ⟨p.1, p.2, c, h6, h7, find_src hok h1, h2, ?_, q, ?_, h5⟩
  · obtain ⟨t, d, h8, h9, _⟩ := hf
    rw [end_src h6, h7] at h8
    injection h8 with h8
    subst h8
    intro h10
    have h9 : goalCon e.cur drop p.1 p.2 c.constraintName = some d := h9
    rw [h10] at h9
    cases h9
  · have hal := hok.pair.columns q h3
    exact List.mem_filter.2 ⟨h3, different hal.defaults.1 hal.defaults.2 h4⟩

variable (hS : Consistent (dbOf e.cur e.coll src)) (hG : Consistent (goalDb e.cur e.coll drop src dest))
  (hp : Passable e.cur e.coll drop src dest (dbOf e.cur e.coll src) (goalDb e.cur e.coll drop src dest))
  {N : Numbers} (hf : Findable N src dest (dbOf e.cur e.coll src) (goalDb e.cur e.coll drop src dest))

include hS hG hp hf in
theorem scene {p : Table × Table} (hm : p ∈ commonTables src dest) :
    Scene N (dbOf e.cur e.coll src) (endDb e drop src dest) (fun k n => redo src dest drop k n = true)
      e drop p.1 p.2 (redo src dest drop (p.2.tableSchema, p.2.tableName)) := by
  have hok := pairOk hs hd hc hm
  obtain ⟨k, h1, h2⟩ := (mem_common_iff hd.ok).1 hm
  have hk := (tab_some h2).2
  subst hk
  have hS1 : (dbOf e.cur e.coll src).table (p.2.tableSchema, p.2.tableName) =
      some (tblOf e.cur e.coll p.1) := by
    rw [srcDb_table, h1]; rfl
  have hG1 : (endDb e drop src dest).table (p.2.tableSchema, p.2.tableName) =
      some (endTbl e drop p.1 p.2) := by
    rw [end_src h1, h2]
  have hk : (p.1.tableSchema, p.1.tableName) = (p.2.tableSchema, p.2.tableName) := by
    rw [hok.same.1, hok.same.2]
  have hfree : ∀ {x : List Str}, (∀ k m cs ref, Foreign (dbOf e.cur e.coll src) k m cs ref →
      Foreign (goalDb e.cur e.coll drop src dest) k m cs ref → ¬ Renewed e.coll src dest k m →
      key ref.table = (p.1.tableSchema, p.1.tableName) → ¬ ref.cols.Perm x) →
      Free (dbOf e.cur e.coll src) (endDb e drop src dest) (fun k n => redo src dest drop k n = true)
        (p.2.tableSchema, p.2.tableName) x := by
    intro x h k m cs ref h3 h4 h5 h6
    exact h k m cs ref h3 (foreign_alike endDb_alike.symm h4)
      (fun h7 => h5 (renewed_redo hcoll hs hd hc h4 h7)) (by rw [hk]; exact h6)
  refine ⟨hok, hS, consistent_alike endDb_alike hG, between_alike endDb_alike hp.names hp.indexNames,
    hS1, hG1, ?_, ?_, ?_, ?_, ?_, ?_⟩
  · refine fitsA hs hd hc (dcut_table.2 ⟨_, hS1, ?_⟩)
    congr 1
    funext n
    unfold lacks
    rw [hG1]; rfl
  · refine fitsB hs hd hc (dcut_table.2 ⟨_, hG1, ?_⟩)
    congr 1
    funext n
    unfold lacks
    rw [hS1]
    show _ = ((Option.map _ _).isNone || _)
    simp
  · intro x h3 h4 h5 h6
    exact (redo_iff hcoll hs hd hc).2 ⟨p.1, p.2, x, h1, h2, find_src hok h3, h4, h5, h6⟩
  · intro x h3 h4 h5
    exact hfree (hp.keys p hm x h3 h4 (h5.imp_right Hit.involved))
  · intro x h3 h4 h5
    have h6 := (hS.idx _ _ x.indexName _ hS1 (by
      show ((liveIndexes p.1).find? fun y => y.indexName == x.indexName).map _ = _
      rw [find?_self (k := fun x : Index => x.indexName) (nodup_indexes hok.src) h3]
      rfl)).2
    have h7 : idxNames (idxOf .sqlserver e.cur false true x) = x.columns := idxNames_cols h6
    rw [h7]
    exact hfree (hp.indexes p hm x h3 h4 (h5.imp_right Hit.involved))
  · intro q h3 h4 h5 d h6 h7
    rw [← hk] at h7 ⊢
    obtain ⟨h8, h9⟩ := hf p hm q h3 h4 h5 d h6 (h7.imp_right (endDb_default hs hd hc))
    exact ⟨h8, fun k h10 => h9 k (h10.imp_right (hasCol_alike endDb_alike.symm))⟩

end
end MsSpec
