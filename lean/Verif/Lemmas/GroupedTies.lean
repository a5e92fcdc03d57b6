import Verif.Lemmas.Grouped

/-!
# Grouping when some rows have the number 0
-/

namespace Sqddl.Scripts

theorem sorted_split {C : Type} {l : List (Nat × C)} (h : l.Pairwise (fun a b => a.1 ≤ b.1)) :
    l = l.filter (fun x => x.1 == 0) ++ l.filter (fun x => !(x.1 == 0)) := by
  induction l with
  | nil => rfl
  | cons x l ih =>
    obtain ⟨h1, h2⟩ := List.pairwise_cons.mp h
    have e := ih h2
    by_cases hx : (x.1 == 0) = true
    · rw [List.filter_cons, if_pos hx, List.filter_cons, if_neg (by rw [hx]; decide), List.cons_append, ← e]
    · have hall : ∀ y ∈ l, (y.1 == 0) = false := by
        intro y hy
        have := h1 y hy
        simp only [beq_iff_eq] at hx
        simp only [beq_eq_false_iff_ne]
        omega
      have e1 : l.filter (fun y => y.1 == 0) = [] := by
        rw [List.filter_eq_nil_iff]
        intro y hy
        rw [hall y hy]
        decide
      rw [e1, List.nil_append] at e
      have hx' : (x.1 == 0) = false := by simpa using hx
      rw [List.filter_cons, if_neg hx, List.filter_cons, if_pos (by rw [hx']; rfl), e1, List.nil_append, ← e]

/-- the rows of a thing: some with the number 0, the others numbered from 1 -/
def tied {K C : Type} (i : K × List C × List C) : List (K × Nat × C) :=
  (i.2.1.map fun c => (i.1, 0, c)) ++ (numbered 1 i.2.2).map (i.1, ·)

theorem sortSeq_tied {C : Type} {zeros keys : List C} {rows : List (Nat × C)}
    (h : rows.Perm ((zeros.map fun c => (0, c)) ++ numbered 1 keys)) :
    ∃ z, z.Perm zeros ∧ (sortSeq rows).map (·.2) = z ++ keys := by
  have hp := (sortSeq_perm rows).trans h
  have hnum : ∀ x ∈ numbered 1 keys, (x.1 == 0) = false := by
    intro x hx
    have := numbered_ge hx
    simp only [beq_eq_false_iff_ne]
    omega
  have hz : ((sortSeq rows).filter (fun x => x.1 == 0)).Perm (zeros.map fun c => (0, c)) := by
    refine (hp.filter _).trans (.of_eq ?_)
    rw [List.filter_append, List.filter_eq_self.mpr, List.filter_eq_nil_iff.mpr, List.append_nil]
    · intro x hx; rw [hnum x hx]; decide
    · intro x hx
      obtain ⟨c, _, rfl⟩ := List.mem_map.mp hx
      rfl
  have hk : (sortSeq rows).filter (fun x => !(x.1 == 0)) = numbered 1 keys := by
    have hperm : ((sortSeq rows).filter (fun x => !(x.1 == 0))).Perm (numbered 1 keys) := by
      refine (hp.filter _).trans (.of_eq ?_)
      rw [List.filter_append, List.filter_eq_nil_iff.mpr, List.filter_eq_self.mpr, List.nil_append]
      · intro x hx; rw [hnum x hx]; rfl
      · intro x hx
        obtain ⟨c, _, rfl⟩ := List.mem_map.mp hx
        simp
    refine List.Perm.eq_of_pairwise (le := fun a b => a.1 ≤ b.1) ?_ ((sortSeq_sorted rows).filter _) ?_ hperm
    · intro a b ha hb h1 h2
      exact numbered_inj (hperm.mem_iff.mp ha) hb (by omega)
    · exact (numbered_inOrder 1 keys).imp (fun h => Nat.le_of_lt h)
  refine ⟨((sortSeq rows).filter (fun x => x.1 == 0)).map (·.2), ?_, ?_⟩
  · refine (hz.map _).trans (.of_eq ?_)
    rw [List.map_map]
    exact List.map_id _
  · rw [← numbered_snd 1 keys, ← hk, ← List.map_append, ← sorted_split (sortSeq_sorted rows)]

/-- Every group is that of one thing, every thing has a group, and no key comes twice. -/
theorem grouped_tied {K C : Type} [DecidableEq K] {items : List (K × List C × List C)}
    (hk : (items.map (·.1)).Nodup) (hne : ∀ i ∈ items, i.2.1 ≠ [] ∨ i.2.2 ≠ []) {rows : List (K × Nat × C)}
    (hp : rows.Perm (items.flatMap tied)) :
    (∀ x ∈ grouped rows, ∃ i ∈ items, x.1 = i.1 ∧ ∃ z, z.Perm i.2.1 ∧ x.2 = z ++ i.2.2) ∧
    (∀ i ∈ items, ∃ x ∈ grouped rows, x.1 = i.1) ∧ ((grouped rows).map (·.1)).Nodup := by
  have hfst : ∀ i : K × List C × List C, ∀ r ∈ tied i, r.1 = i.1 := by
    intro i r hr
    rcases List.mem_append.mp hr with h | h
    · obtain ⟨x, _, rfl⟩ := List.mem_map.mp h; rfl
    · obtain ⟨x, _, rfl⟩ := List.mem_map.mp h; rfl
  have hrow : ∀ i ∈ items, (rows.filter (fun r => r.1 = i.1)).Perm (tied i) := by
    intro i hi
    refine (hp.filter _).trans (.of_eq ?_)
    refine filter_flatMap_only _ _ hi (nodup_of_keys hk) ?_ ?_
    · intro r hr
      simp [hfst i r hr]
    · intro j hj hji r hr
      simp only [decide_eq_false_iff_not]
      rw [hfst j r hr]
      exact fun e => hji (key_inj hk hj hi e)
  have hkeys : ∀ k, k ∈ rows.map (·.1) ↔ k ∈ items.map (·.1) := by
    intro k
    rw [List.mem_map, List.mem_map]
    constructor
    · rintro ⟨r, hr, rfl⟩
      obtain ⟨i, hi, hri⟩ := List.mem_flatMap.mp (hp.mem_iff.mp hr)
      exact ⟨i, hi, (hfst i r hri).symm⟩
    · rintro ⟨i, hi, rfl⟩
      have : tied i ≠ [] := by
        unfold tied
        rcases hne i hi with h | h
        · obtain ⟨c, l, hc⟩ := List.exists_cons_of_ne_nil h
          rw [hc]
          simp
        · obtain ⟨c, l, hc⟩ := List.exists_cons_of_ne_nil h
          rw [hc]
          simp [numbered]
      obtain ⟨r, l, hr⟩ := List.exists_cons_of_ne_nil this
      have hmem : r ∈ tied i := by rw [hr]; exact List.mem_cons_self ..
      exact ⟨r, hp.mem_iff.mpr (List.mem_flatMap.mpr ⟨i, hi, hmem⟩), hfst i r hmem⟩
  refine ⟨?_, ?_, ?_⟩
  · intro x hx
    unfold grouped at hx
    obtain ⟨k, hkk, rfl⟩ := List.mem_map.mp hx
    rw [mem_keysOf, hkeys] at hkk
    obtain ⟨i, hi, rfl⟩ := List.mem_map.mp hkk
    refine ⟨i, hi, rfl, ?_⟩
    refine sortSeq_tied (((hrow i hi).map (·.2)).trans (.of_eq ?_))
    unfold tied
    rw [List.map_append, List.map_map, List.map_map]
    exact congrArg (_ ++ ·) (List.map_id _)
  · intro i hi
    unfold grouped
    exact ⟨_, List.mem_map.mpr ⟨i.1, (mem_keysOf ..).mpr ((hkeys _).mpr (List.mem_map.mpr ⟨i, hi, rfl⟩)), rfl⟩, rfl⟩
  · unfold grouped
    rw [List.map_map]
    exact (List.map_id _).symm ▸ nodup_keysOf _

end Sqddl.Scripts
