import Verif.Model.ScriptKeys

/-!
# Joins and groups

A query that joins the rows of the parts of things and groups them by the key of the thing gives the
things with their parts in order, in whichever order the tables are read.
-/

namespace Sqddl.Scripts

/-! ## Sorting by number -/

theorem putSeq_perm {C : Type} (x : Nat × C) (l : List (Nat × C)) : (putSeq x l).Perm (x :: l) := by
  induction l with
  | nil => exact .refl _
  | cons y l ih =>
    unfold putSeq
    by_cases h : x.1 ≤ y.1
    · rw [if_pos h]
    · rw [if_neg h]
      exact (ih.cons y).trans (.swap ..)

theorem sortSeq_perm {C : Type} (l : List (Nat × C)) : (sortSeq l).Perm l := by
  induction l with
  | nil => exact .refl _
  | cons x l ih => exact (putSeq_perm x _).trans (ih.cons x)

theorem putSeq_sorted {C : Type} (x : Nat × C) {l : List (Nat × C)} (h : l.Pairwise (fun a b => a.1 ≤ b.1)) :
    (putSeq x l).Pairwise (fun a b => a.1 ≤ b.1) := by
  induction l with
  | nil => exact List.pairwise_singleton ..
  | cons y l ih =>
    obtain ⟨h1, h2⟩ := List.pairwise_cons.mp h
    unfold putSeq
    by_cases hxy : x.1 ≤ y.1
    · rw [if_pos hxy]
      refine List.pairwise_cons.mpr ⟨fun z hz => ?_, h⟩
      rcases List.mem_cons.mp hz with rfl | hz
      · exact hxy
      · exact Nat.le_trans hxy (h1 z hz)
    · rw [if_neg hxy]
      refine List.pairwise_cons.mpr ⟨fun z hz => ?_, ih h2⟩
      rcases List.mem_cons.mp ((putSeq_perm x l).mem_iff.mp hz) with rfl | hz
      · omega
      · exact h1 z hz

theorem sortSeq_sorted {C : Type} (l : List (Nat × C)) : (sortSeq l).Pairwise (fun a b => a.1 ≤ b.1) := by
  induction l with
  | nil => exact .nil
  | cons x l ih => exact putSeq_sorted x ih

/-- the parts of a thing with their numbers -/
def numbered {C : Type} (n : Nat) : List C → List (Nat × C)
  | [] => []
  | c :: l => (n, c) :: numbered (n + 1) l

theorem numbered_ge {C : Type} {n : Nat} {l : List C} {x : Nat × C} (h : x ∈ numbered n l) : n ≤ x.1 := by
  induction l generalizing n with
  | nil => cases h
  | cons c l ih =>
    rcases List.mem_cons.mp h with rfl | h
    · exact Nat.le_refl _
    · have := ih h; omega

theorem numbered_inOrder {C : Type} (n : Nat) (l : List C) : (numbered n l).Pairwise (fun a b => a.1 < b.1) := by
  induction l generalizing n with
  | nil => exact .nil
  | cons c l ih => exact List.pairwise_cons.mpr ⟨fun x hx => by have := numbered_ge hx; simp only; omega, ih _⟩

theorem numbered_snd {C : Type} (n : Nat) (l : List C) : (numbered n l).map (·.2) = l := by
  induction l generalizing n with
  | nil => rfl
  | cons c l ih => exact congrArg (c :: ·) (ih _)

theorem numbered_inj {C : Type} {n : Nat} {l : List C} {x y : Nat × C} (hx : x ∈ numbered n l)
    (hy : y ∈ numbered n l) (h : x.1 = y.1) : x = y := by
  induction l generalizing n with
  | nil => cases hx
  | cons c l ih =>
    rcases List.mem_cons.mp hx with rfl | hx
    · rcases List.mem_cons.mp hy with rfl | hy
      · rfl
      · have := numbered_ge hy; simp only at h; omega
    · rcases List.mem_cons.mp hy with rfl | hy
      · have := numbered_ge hx; simp only at h; omega
      · exact ih hx hy

theorem sortSeq_numbered {C : Type} {n : Nat} {l : List C} {rows : List (Nat × C)}
    (h : rows.Perm (numbered n l)) : sortSeq rows = numbered n l := by
  have hp := (sortSeq_perm rows).trans h
  refine List.Perm.eq_of_pairwise (le := fun a b => a.1 ≤ b.1) ?_ (sortSeq_sorted rows) ?_ hp
  · intro a b ha hb h1 h2
    exact numbered_inj (hp.mem_iff.mp ha) hb (by omega)
  · exact (numbered_inOrder n l).imp (fun h => Nat.le_of_lt h)

/-! ## Groups -/

theorem mem_keysOf {K : Type} [DecidableEq K] (k : K) (l : List K) : k ∈ keysOf l ↔ k ∈ l := by
  induction l with
  | nil => exact Iff.rfl
  | cons a l ih =>
    unfold keysOf
    by_cases h : a ∈ l
    · rw [if_pos h, ih, List.mem_cons]
      exact ⟨.inr, fun e => e.elim (fun e => e ▸ h) id⟩
    · rw [if_neg h, List.mem_cons, List.mem_cons, ih]

theorem nodup_keysOf {K : Type} [DecidableEq K] (l : List K) : (keysOf l).Nodup := by
  induction l with
  | nil => exact List.nodup_nil
  | cons a l ih =>
    unfold keysOf
    by_cases h : a ∈ l
    · rw [if_pos h]; exact ih
    · rw [if_neg h]
      exact List.nodup_cons.mpr ⟨fun e => h ((mem_keysOf a l).mp e), ih⟩

/-- the rows of a thing -/
def spread {K C : Type} (n : Nat) (i : K × List C) : List (K × Nat × C) := (numbered n i.2).map (i.1, ·)

theorem filter_flatMap_only {I R : Type} (g : I → List R) (p : R → Bool) {db : List I} {i : I} (hi : i ∈ db)
    (hn : db.Nodup) (h1 : ∀ r ∈ g i, p r = true) (h2 : ∀ j ∈ db, j ≠ i → ∀ r ∈ g j, p r = false) :
    (db.flatMap g).filter p = g i := by
  induction db with
  | nil => cases hi
  | cons j db ih =>
    obtain ⟨hj, hn'⟩ := List.nodup_cons.mp hn
    rw [List.flatMap_cons, List.filter_append]
    by_cases e : j = i
    · subst e
      have : (db.flatMap g).filter p = [] := by
        rw [List.filter_eq_nil_iff]
        intro r hr
        obtain ⟨k, hk, hr⟩ := List.mem_flatMap.mp hr
        rw [h2 k (List.mem_cons_of_mem _ hk) (fun e => hj (e ▸ hk)) r hr]
        exact Bool.false_ne_true
      rw [this, List.append_nil, List.filter_eq_self]
      exact h1
    · have h0 : (g j).filter p = [] := by
        rw [List.filter_eq_nil_iff]
        intro r hr
        rw [h2 j (List.mem_cons_self ..) e r hr]
        exact Bool.false_ne_true
      rw [h0, List.nil_append]
      refine ih ?_ hn' (fun k hk => h2 k (List.mem_cons_of_mem _ hk))
      rcases List.mem_cons.mp hi with rfl | hi
      · exact absurd rfl e
      · exact hi

theorem nodup_of_keys {K C : Type} {items : List (K × C)} (h : (items.map (·.1)).Nodup) : items.Nodup := by
  induction items with
  | nil => exact List.nodup_nil
  | cons i l ih =>
    obtain ⟨h1, h2⟩ := List.nodup_cons.mp h
    exact List.nodup_cons.mpr ⟨fun e => h1 (List.mem_map.mpr ⟨i, e, rfl⟩), ih h2⟩

theorem key_inj {K C : Type} {items : List (K × C)} (h : (items.map (·.1)).Nodup) {i j : K × C} (hi : i ∈ items)
    (hj : j ∈ items) (e : i.1 = j.1) : i = j := by
  induction items with
  | nil => cases hi
  | cons a l ih =>
    obtain ⟨h1, h2⟩ := List.nodup_cons.mp h
    rcases List.mem_cons.mp hi with rfl | hi'
    · rcases List.mem_cons.mp hj with rfl | hj'
      · rfl
      · exact absurd (List.mem_map.mpr ⟨j, hj', e.symm⟩) h1
    · rcases List.mem_cons.mp hj with rfl | hj'
      · have : j.1 ∈ l.map (·.1) := List.mem_map.mpr ⟨i, hi', e⟩
        exact absurd this h1
      · exact ih h2 hi' hj'

/-- The groups of the rows of things with different keys are the things. -/
theorem grouped_perm {K C : Type} [DecidableEq K] (n : Nat) {items : List (K × List C)}
    (hk : (items.map (·.1)).Nodup) (hne : ∀ i ∈ items, i.2 ≠ []) {rows : List (K × Nat × C)}
    (hp : rows.Perm (items.flatMap (spread n))) : (grouped rows).Perm items := by
  have hrow : ∀ i ∈ items, (rows.filter (fun r => r.1 = i.1)).Perm (spread n i) := by
    intro i hi
    refine (hp.filter _).trans (.of_eq ?_)
    refine filter_flatMap_only _ _ hi (nodup_of_keys hk) ?_ ?_
    · intro r hr
      obtain ⟨x, _, rfl⟩ := List.mem_map.mp hr
      simp
    · intro j hj hji r hr
      obtain ⟨x, _, rfl⟩ := List.mem_map.mp hr
      simp only [decide_eq_false_iff_not]
      exact fun e => hji (key_inj hk hj hi e)
  have hgroup : ∀ i ∈ items,
      (sortSeq ((rows.filter (fun r => r.1 = i.1)).map (·.2))).map (·.2) = i.2 := by
    intro i hi
    have h1 := (hrow i hi).map (·.2)
    have h2 : (spread n i).map (·.2) = numbered n i.2 := by
      unfold spread
      rw [List.map_map]
      exact List.map_id _
    rw [h2] at h1
    rw [sortSeq_numbered h1, numbered_snd]
  have hkeys : ∀ k, k ∈ rows.map (·.1) ↔ k ∈ items.map (·.1) := by
    intro k
    rw [List.mem_map, List.mem_map]
    constructor
    · rintro ⟨r, hr, rfl⟩
      obtain ⟨i, hi, hri⟩ := List.mem_flatMap.mp (hp.mem_iff.mp hr)
      obtain ⟨x, _, rfl⟩ := List.mem_map.mp hri
      exact ⟨i, hi, rfl⟩
    · rintro ⟨i, hi, rfl⟩
      obtain ⟨c, l, hc⟩ := List.exists_cons_of_ne_nil (hne i hi)
      refine ⟨(i.1, n, c), hp.mem_iff.mpr (List.mem_flatMap.mpr ⟨i, hi, ?_⟩), rfl⟩
      unfold spread
      rw [hc]
      exact List.mem_cons_self ..
  unfold grouped
  have hkp : (keysOf (rows.map (·.1))).Perm (items.map (·.1)) := by
    rw [List.perm_ext_iff_of_nodup (nodup_keysOf _) hk]
    intro k
    rw [mem_keysOf, hkeys]
  refine (hkp.map _).trans (.of_eq ?_)
  rw [List.map_map]
  have : ∀ i ∈ items, ((fun k => (k, (sortSeq ((rows.filter (fun r => r.1 = k)).map (·.2))).map (·.2))) ∘
      (·.1)) i = i := by
    intro i hi
    simp only [Function.comp]
    rw [hgroup i hi]
  rw [List.map_congr_left this, List.map_id']

/-! ## Joins -/

theorem flatMap_perm {I R : Type} {f g : I → List R} {db : List I} (h : ∀ i ∈ db, (f i).Perm (g i)) :
    (db.flatMap f).Perm (db.flatMap g) := by
  induction db with
  | nil => exact .refl _
  | cons i db ih =>
    rw [List.flatMap_cons, List.flatMap_cons]
    exact (h i (List.mem_cons_self ..)).append (ih fun j hj => h j (List.mem_cons_of_mem _ hj))

theorem flatMap_congr {I R : Type} {f g : I → List R} {db : List I} (h : ∀ i ∈ db, f i = g i) :
    db.flatMap f = db.flatMap g := by
  induction db with
  | nil => rfl
  | cons i db ih =>
    rw [List.flatMap_cons, List.flatMap_cons, h i (List.mem_cons_self ..),
      ih fun j hj => h j (List.mem_cons_of_mem _ hj)]

theorem flatMap_only {I R : Type} {g : I → List R} {db : List I} {i : I} (hi : i ∈ db)
    (hn : db.Nodup) (h2 : ∀ j ∈ db, j ≠ i → g j = []) : db.flatMap g = g i := by
  induction db with
  | nil => cases hi
  | cons j db ih =>
    obtain ⟨hj, hn'⟩ := List.nodup_cons.mp hn
    rw [List.flatMap_cons]
    by_cases e : j = i
    · subst e
      have : db.flatMap g = [] := by
        rw [List.flatMap_eq_nil_iff]
        exact fun k hk => h2 k (List.mem_cons_of_mem _ hk) (fun e => hj (e ▸ hk))
      rw [this, List.append_nil]
    · rw [h2 j (List.mem_cons_self ..) e, List.nil_append]
      refine ih ?_ hn' (fun k hk => h2 k (List.mem_cons_of_mem _ hk))
      rcases List.mem_cons.mp hi with rfl | hi
      · exact absurd rfl e
      · exact hi

/-- A join of a table with a row for each thing and a table with the rows of its parts, if no row of
another thing matches. -/
theorem join_perm {I A B R : Type} {db : List I} {as : List A} {bs : List B} {ta : I → A} {tb : I → List B}
    (m : A → B → List R) (hn : db.Nodup) (ha : as.Perm (db.map ta)) (hb : bs.Perm (db.flatMap tb))
    (hm : ∀ i ∈ db, ∀ j ∈ db, j ≠ i → ∀ b ∈ tb j, m (ta i) b = []) :
    (as.flatMap fun a => bs.flatMap (m a)).Perm (db.flatMap fun i => (tb i).flatMap (m (ta i))) := by
  refine (ha.flatMap_right _).trans ?_
  rw [List.flatMap_map]
  refine flatMap_perm fun i hi => (hb.flatMap_right _).trans (.of_eq ?_)
  rw [List.flatMap_assoc]
  refine flatMap_only (g := fun j => (tb j).flatMap (m (ta i))) hi hn fun j hj hji => ?_
  rw [List.flatMap_eq_nil_iff]
  exact hm i hi j hj hji

theorem flatMap_if {I R : Type} (p : I → Bool) (g : I → List R) (db : List I) :
    (db.flatMap fun i => if p i = true then g i else []) = (db.filter p).flatMap g := by
  induction db with
  | nil => rfl
  | cons i db ih =>
    rw [List.flatMap_cons, ih, List.filter_cons]
    by_cases h : p i = true
    · rw [if_pos h, if_pos h, List.flatMap_cons]
    · rw [if_neg h, if_neg h, List.nil_append]

theorem numbered_zipIdx {C : Type} (n : Nat) (l : List C) :
    numbered n l = (l.zipIdx n).map fun x => (x.2, x.1) := by
  induction l generalizing n with
  | nil => rfl
  | cons c l ih =>
    rw [List.zipIdx_cons, List.map_cons, ← ih]
    rfl

theorem map_nodup_of {I K : Type} {g : I → K} {db : List I} (hn : db.Nodup)
    (h : ∀ i ∈ db, ∀ j ∈ db, g i = g j → i = j) : (db.map g).Nodup := by
  induction db with
  | nil => exact List.nodup_nil
  | cons i db ih =>
    obtain ⟨h1, h2⟩ := List.nodup_cons.mp hn
    refine List.nodup_cons.mpr ⟨fun e => ?_, ih h2 fun a ha b hb =>
      h a (List.mem_cons_of_mem _ ha) b (List.mem_cons_of_mem _ hb)⟩
    obtain ⟨j, hj, e⟩ := List.mem_map.mp e
    have := h j (List.mem_cons_of_mem _ hj) i (List.mem_cons_self ..) e
    exact h1 (this ▸ hj)

theorem map_nodup_inj {I K : Type} {g : I → K} {db : List I} (hn : (db.map g).Nodup) {i j : I} (hi : i ∈ db)
    (hj : j ∈ db) (e : g i = g j) : i = j := by
  induction db with
  | nil => cases hi
  | cons a l ih =>
    obtain ⟨h1, h2⟩ := List.nodup_cons.mp hn
    rcases List.mem_cons.mp hi with rfl | hi'
    · rcases List.mem_cons.mp hj with rfl | hj'
      · rfl
      · exact absurd (List.mem_map.mpr ⟨j, hj', e.symm⟩) h1
    · rcases List.mem_cons.mp hj with rfl | hj'
      · have : g j ∈ l.map g := List.mem_map.mpr ⟨i, hi', e⟩
        exact absurd this h1
      · exact ih h2 hi' hj'

end Sqddl.Scripts
