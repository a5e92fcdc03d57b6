import Verif.Lemmas.Grouped
import Verif.Spec.ScriptIndexes
import Verif.Props.ScriptRows

/-!
# C111: the indexes of MySQL are reported as they were defined
-/

namespace Sqddl.Scripts
open OwnSpec IndexSpec

/-- the index is on a table that is asked for -/
def IndexAsked (f : Filter) (i : MyIndex) : Prop :=
  (f.system = true ∨ ¬ MyOwn i.schema) ∧ Wanted f.schemas f.excludeSchemas i.schema ∧
    Wanted f.tables f.excludeTables i.table

theorem myPart_row {old : Bool} {p : Part} (h : old = true → ∃ n, p = .column n) (s t n y : Str) (u : Bool)
    (q : Nat) (d : Bool) :
    myPart old ⟨s, t, n, y, u, q, p.name?, p.expr?, d⟩ = some p.text := by
  cases p with
  | column n => rfl
  | expr e =>
    unfold myPart Part.name? Part.expr?
    dsimp only
    by_cases ho : old = true
    · obtain ⟨n, hn⟩ := h ho
      cases hn
    · rw [if_neg ho]
      rfl

/-- C111: the indexes of MySQL that are reported are those of the tables that are asked for that were
not made for constraints, each once, with its columns and expressions in their order and their
directions, if no constraint has the name of such an index. -/
theorem mysql_index_columns_partial {old : Bool} {f : Filter} {db : List MyIndex} {c : MyStats}
    (hf : OneOf f.schemas f.excludeSchemas) (ht : OneOf f.tables f.excludeTables) (hs : MyIndexShows db c)
    (hv : MyIndexValid old db) (ha : MyIndexApart db c) :
    (∀ x, x ∈ myIndexCols old f c ↔ ∃ i ∈ db, i.made = false ∧ IndexAsked f i ∧
      x = (⟨i.schema, i.table, i.name, i.type, i.unique⟩, i.parts.map (·.1.text), i.parts.map (·.2))) ∧
    (myIndexCols old f c).Nodup := by
  let sel : MyIndex → Bool := fun i => !c.constraints.any (fun k => k.2.2 == i.name) && myShown f i.schema &&
    passes f.tables f.excludeTables i.table
  have hsel : ∀ i ∈ db, sel i = true ↔ i.made = false ∧ IndexAsked f i := by
    intro i hi
    simp only [sel, Bool.and_eq_true, myShown_iff hf, passes_iff ht]
    have h1 : (!c.constraints.any (fun k => k.2.2 == i.name)) = true ↔ i.made = false := by
      cases hm : i.made with
      | true =>
        have := hs.made i hi hm
        simp only [Bool.not_eq_true', List.any_eq_false, Bool.true_eq_false, iff_false]
        intro h
        exact h _ this (by simp)
      | false =>
        simp only [Bool.not_eq_true', List.any_eq_false, iff_true]
        intro k hk
        simpa using ha i hi hm k hk
    rw [h1, and_assoc, and_assoc]
    rfl
  have hdb : db.Nodup := (List.pairwise_map.mp hv.names).imp fun h e => h (by rw [e])
  let view : MyIndex → MyIndexKey × List (Option Str × Bool) := fun i =>
    (⟨i.schema, i.table, i.name, i.type, i.unique⟩, i.parts.map fun p => (some p.1.text, p.2))
  have hk : (((db.filter sel).map view).map (·.1)).Nodup := by
    rw [List.map_map]
    refine map_nodup_of (hdb.filter _) ?_
    intro i hi j hj e
    simp only [Function.comp, view, MyIndexKey.mk.injEq] at e
    exact map_nodup_inj hv.names (List.mem_filter.mp hi).1 (List.mem_filter.mp hj).1
      (by simp only [e.1, e.2.1, e.2.2.1])
  have hp : (grouped (c.stats.flatMap fun s =>
      if !c.constraints.any (fun k => k.2.2 == s.name) && myShown f s.schema &&
          passes f.tables f.excludeTables s.table then
        [((⟨s.schema, s.table, s.name, s.type, !s.nonUnique⟩ : MyIndexKey), s.seq, myPart old s, s.descending)]
      else [])).Perm ((db.filter sel).map view) := by
    refine grouped_perm 1 hk ?_ ?_
    · intro x hx
      obtain ⟨i, hi, rfl⟩ := List.mem_map.mp hx
      exact fun e => hv.parts i (List.mem_filter.mp hi).1 (List.map_eq_nil_iff.mp e)
    · refine (hs.stats.flatMap_right _).trans (.of_eq ?_)
      rw [List.flatMap_assoc, List.flatMap_map, ← flatMap_if]
      refine flatMap_congr fun i hi => ?_
      unfold statRows
      rw [List.flatMap_map]
      by_cases h : sel i = true
      · rw [if_pos h]
        unfold spread
        rw [numbered_zipIdx, List.zipIdx_map, List.map_map, List.map_map, List.map_eq_flatMap]
        refine flatMap_congr fun x hx => ?_
        refine (if_pos h).trans ?_
        have hm : x.1 ∈ i.parts := by
          have : x.1 ∈ (i.parts.zipIdx 1).map (·.1) := List.mem_map.mpr ⟨x, hx, rfl⟩
          rwa [show (i.parts.zipIdx 1).map (·.1) = i.parts from List.zipIdx_map_fst 1 i.parts] at this
        have := myPart_row (p := x.1.1) (fun ho => hv.old ho i hi x.1 hm) i.schema i.table i.name i.type
          (!i.unique) x.2 x.1.2
        dsimp only
        rw [this]
        simp only [Function.comp, view, Prod.map, Bool.not_not, id]
      · rw [if_neg h, List.flatMap_eq_nil_iff]
        intro x _
        exact if_neg h
  have hq : (myIndexCols old f c).Perm ((db.filter sel).map fun i =>
      (⟨i.schema, i.table, i.name, i.type, i.unique⟩, i.parts.map (·.1.text), i.parts.map (·.2))) := by
    refine (hp.map _).trans (.of_eq ?_)
    rw [List.map_map]
    refine List.map_congr_left fun i _ => ?_
    simp only [Function.comp, view, List.filterMap_map, List.map_map]
    refine congrArg (Prod.mk _) (Prod.ext ?_ rfl)
    exact (List.filterMap_eq_map' (f := fun p : Part × Bool => p.1.text) ▸ rfl)
  constructor
  · intro x
    rw [hq.mem_iff, List.mem_map]
    constructor
    · rintro ⟨i, hi, rfl⟩
      rw [List.mem_filter] at hi
      obtain ⟨h1, h2⟩ := (hsel i hi.1).mp hi.2
      exact ⟨i, hi.1, h1, h2, rfl⟩
    · rintro ⟨i, hi, h1, h2, rfl⟩
      exact ⟨i, List.mem_filter.mpr ⟨hi, (hsel i hi).mpr ⟨h1, h2⟩⟩, rfl⟩
  · refine hq.nodup_iff.mpr (map_nodup_of (hdb.filter _) ?_)
    intro i hi j hj e
    have e1 := congrArg (·.1) e
    simp only [MyIndexKey.mk.injEq] at e1
    exact map_nodup_inj hv.names (List.mem_filter.mp hi).1 (List.mem_filter.mp hj).1
      (by simp only [e1.1, e1.2.1, e1.2.2.1])

end Sqddl.Scripts
