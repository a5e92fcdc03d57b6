import Verif.Spec.Structs

/-!
# The structs of a table that structs can describe

The maps and positions of `tableStruct` replaced by filters over the keys and indexes of the table.
-/

namespace Sqddl.Structs
open Go StructSpec

/-! ## Positions of modifiers -/

/-- At most one element has the property. -/
def Uniq {α : Type} (p : α → Bool) (l : List α) : Prop :=
  ∀ (i j : Nat) (a b : α), l[i]? = some a → l[j]? = some b → p a = true → p b = true → i = j

theorem Uniq.tail {α : Type} {p : α → Bool} {a : α} {l : List α} (h : Uniq p (a :: l)) : Uniq p l := by
  intro i j x y hi hj hx hy
  have := h (i + 1) (j + 1) x y (by simpa using hi) (by simpa using hj) hx hy
  omega

theorem filter_uniq {α : Type} {p : α → Bool} {l : List α} (h : Uniq p l) {i : Nat} {a : α}
    (hi : l[i]? = some a) (ha : p a = true) : l.filter p = [a] := by
  induction l generalizing i with
  | nil => simp at hi
  | cons b l ih =>
    cases i with
    | zero =>
      simp at hi; subst hi
      rw [List.filter_cons, if_pos ha]
      have : l.filter p = [] := by
        rw [List.filter_eq_nil_iff]
        intro x hx hpx
        obtain ⟨j, hj⟩ := List.mem_iff_getElem?.1 hx
        have := h 0 (j + 1) b x (by simp) (by simpa using hj) ha hpx
        omega
      rw [this]
    | succ i =>
      simp at hi
      have hb : ¬ p b = true := by
        intro hb
        have := h 0 (i + 1) b a (by simp) (by simpa using hi) hb ha
        omega
      rw [List.filter_cons, if_neg hb]
      exact ih h.tail hi

/-- The position of the last element with a property. -/
def lastPos {α : Type} (p : α → Bool) (l : List α) : Option Nat :=
  ((l.zipIdx.reverse).find? fun e => p e.1).map (·.2)

theorem lastPos_some {α : Type} {p : α → Bool} {l : List α} {i : Nat} (h : lastPos p l = some i) :
    ∃ a, l[i]? = some a ∧ p a = true := by
  unfold lastPos at h
  rw [Option.map_eq_some_iff] at h
  obtain ⟨⟨a, j⟩, hf, rfl⟩ := h
  have hm := List.mem_of_find?_eq_some hf
  have hp := List.find?_some hf
  rw [List.mem_reverse, List.mem_zipIdx_iff_getElem?] at hm
  exact ⟨a, hm, hp⟩

theorem lastPos_none {α : Type} {p : α → Bool} {l : List α} :
    lastPos p l = none ↔ ∀ a ∈ l, p a = false := by
  unfold lastPos
  rw [Option.map_eq_none_iff, List.find?_eq_none]
  constructor
  · intro h a ha
    obtain ⟨j, hj⟩ := List.mem_iff_getElem?.1 ha
    have := h (a, j) (by rw [List.mem_reverse, List.mem_zipIdx_iff_getElem?]; exact hj)
    simpa using this
  · rintro h ⟨a, j⟩ hm
    rw [List.mem_reverse, List.mem_zipIdx_iff_getElem?] at hm
    have := h a (List.mem_of_getElem? hm)
    simpa using this

theorem lastPos_uniq {α : Type} {p : α → Bool} {l : List α} (h : Uniq p l) {i : Nat} {a : α}
    (hi : l[i]? = some a) (ha : p a = true) : lastPos p l = some i := by
  cases hl : lastPos p l with
  | none =>
    rw [lastPos_none] at hl
    rw [hl a (List.mem_of_getElem? hi)] at ha
    simp at ha
  | some j =>
    obtain ⟨b, hb, hpb⟩ := lastPos_some hl
    rw [h i j a b hi hb ha hpb]

theorem atPos_lastPos {p : Modifier → Bool} {l : List Modifier} (h : Uniq p l) :
    atPos l (lastPos p l) = l.filter p := by
  cases hl : lastPos p l with
  | none =>
    rw [lastPos_none] at hl
    rw [List.filter_eq_nil_iff.2 (by intro a ha; simp [hl a ha])]
    rfl
  | some j =>
    obtain ⟨b, hb, hpb⟩ := lastPos_some hl
    rw [filter_uniq h hb hpb]
    simp [atPos, hb]

theorem keyPos_eq (ms : List Modifier) (n v : Str) :
    keyPos ms n v = lastPos (fun m => m.name == n && m.value == v) ms := rfl

theorem pkeyPos_eq (ms : List Modifier) :
    pkeyPos ms = lastPos (fun m => m.name == b!"primarykey") ms := rfl

/-- Different modifiers have different names or values, and there is at most one primary key. -/
structure Distinct (ms : List Modifier) : Prop where
  pairs : ∀ n v, Uniq (fun m : Modifier => m.name == n && m.value == v) ms
  pkey : Uniq (fun m : Modifier => m.name == b!"primarykey") ms

theorem filter_zipIdx {α : Type} (q : α × Nat → Bool) (q' : α → Bool) (l : List α)
    (h : ∀ i a, l[i]? = some a → q (a, i) = q' a) :
    (l.zipIdx.filter q).map (·.1) = l.filter q' := by
  have : ∀ k : Nat, (∀ i a, l[i]? = some a → q (a, k + i) = q' a) →
      ((l.zipIdx k).filter q).map (·.1) = l.filter q' := by
    clear h
    induction l with
    | nil => intro k _; rfl
    | cons a l ih =>
      intro k h
      have h0 := h 0 a (by simp)
      have ht := ih (k + 1) (fun i b hb => by
        have := h (i + 1) b (by simpa using hb)
        rw [show k + 1 + i = k + (i + 1) by omega]; exact this)
      simp only [List.zipIdx_cons, List.filter_cons]
      simp only [Nat.add_zero] at h0
      rw [h0]
      split
      · simp [ht]
      · exact ht
  exact this 0 (by simpa using h)

theorem map_zipIdx {α β : Type} (f : α × Nat → β) (g : α → β) (l : List α)
    (h : ∀ i a, l[i]? = some a → f (a, i) = g a) : l.zipIdx.map f = l.map g := by
  have : ∀ k : Nat, (∀ i a, l[i]? = some a → f (a, k + i) = g a) →
      (l.zipIdx k).map f = l.map g := by
    clear h
    induction l with
    | nil => intro k _; rfl
    | cons a l ih =>
      intro k h
      have h0 := h 0 a (by simp)
      have ht := ih (k + 1) (fun i b hb => by
        have := h (i + 1) b (by simpa using hb)
        rw [show k + 1 + i = k + (i + 1) by omega]; exact this)
      simp only [List.zipIdx_cons, List.map_cons]
      simp only [Nat.add_zero] at h0
      rw [h0, ht]
  exact this 0 (by simpa using h)

theorem keyPos_at {ms : List Modifier} (h : Distinct ms) {i : Nat} {m : Modifier}
    (hi : ms[i]? = some m) : keyPos ms m.name m.value = some i := by
  rw [keyPos_eq]; exact lastPos_uniq (h.pairs _ _) hi (by simp)

theorem pkeyPos_at {ms : List Modifier} (h : Distinct ms) {i : Nat} {m : Modifier}
    (hi : ms[i]? = some m) (hm : m.name = b!"primarykey") : pkeyPos ms = some i := by
  rw [pkeyPos_eq]; exact lastPos_uniq h.pkey hi (by simp [hm])

/-! ## The lists of `tableStruct` as filters -/

/-- A foreign key with the indexes on its columns. -/
def addIndexes (is : List Modifier) (m : Modifier) : Modifier :=
  if m.name = b!"foreignkey" then
    .mk m.dialects m.name m.raw m.value
      (m.subs ++ (is.filter fun x => x.value == m.value).map noValue)
  else m

theorem withIndexes_eq {ks : List Modifier} (h : Distinct ks) (is : List Modifier) :
    withIndexes ks is = ks.map (addIndexes is) := by
  refine map_zipIdx _ _ _ fun i m hi => ?_
  unfold addIndexes
  by_cases hn : m.name = b!"foreignkey"
  · have := keyPos_at h hi
    rw [hn] at this
    rw [if_pos ⟨hn, this⟩, if_pos hn]
  · rw [if_neg (fun hh => hn hh.1), if_neg hn]

theorem addIndexes_name (is : List Modifier) (m : Modifier) : (addIndexes is m).name = m.name := by
  unfold addIndexes; split <;> rfl

theorem addIndexes_value (is : List Modifier) (m : Modifier) : (addIndexes is m).value = m.value := by
  unfold addIndexes; split <;> rfl

theorem Distinct.map {ks : List Modifier} (h : Distinct ks) (is : List Modifier) :
    Distinct (ks.map (addIndexes is)) := by
  constructor
  · intro n v i j a b hi hj ha hb
    rw [List.getElem?_map, Option.map_eq_some_iff] at hi hj
    obtain ⟨a', hi, rfl⟩ := hi
    obtain ⟨b', hj, rfl⟩ := hj
    simp only [addIndexes_name, addIndexes_value] at ha hb
    exact h.pairs n v i j a' b' hi hj ha hb
  · intro i j a b hi hj ha hb
    rw [List.getElem?_map, Option.map_eq_some_iff] at hi hj
    obtain ⟨a', hi, rfl⟩ := hi
    obtain ⟨b', hj, rfl⟩ := hj
    simp only [addIndexes_name] at ha hb
    exact h.pkey i j a' b' hi hj ha hb

theorem keyAt_eq {ms : List Modifier} (h : Distinct ms) (n v : Str) :
    atPos ms (keyPos ms n v) = ms.filter fun m => m.name == n && m.value == v := by
  rw [keyPos_eq]; exact atPos_lastPos (h.pairs n v)

theorem pkeyAt_eq {ms : List Modifier} (h : Distinct ms) :
    atPos ms (pkeyPos ms) = ms.filter fun m => m.name == b!"primarykey" := by
  rw [pkeyPos_eq]; exact atPos_lastPos h.pkey

theorem restKeys_eq {ks : List Modifier} (h : Distinct ks) (cols : List Str) :
    restKeys cols ks = ks.filter fun m => !(m.name == b!"primarykey" || cols.contains m.value) := by
  refine filter_zipIdx _ _ _ fun i m hi => ?_
  by_cases hn : m.name = b!"primarykey"
  · simp [hn, pkeyPos_at h hi hn]
  · simp [hn, keyPos_at h hi]

theorem keyPos_none (ms : List Modifier) (n v : Str) :
    keyPos ms n v = none ↔ ∀ m ∈ ms, ¬ (m.name = n ∧ m.value = v) := by
  rw [keyPos_eq, lastPos_none]
  refine forall_congr' fun m => ?_
  simp

theorem restIndexes_eq (ks : List Modifier) {is : List Modifier} (h : Distinct is)
    (hn : ∀ m ∈ is, m.name = b!"index") (cols : List Str) :
    restIndexes cols ks is = is.filter fun m =>
      !(ks.any fun k => k.name == b!"foreignkey" && k.value == m.value) &&
      !(cols.contains m.value) := by
  refine filter_zipIdx _ _ _ fun i m hi => ?_
  have h1 := keyPos_at h hi
  rw [hn m (List.mem_of_getElem? hi)] at h1
  simp only [h1, true_and]
  congr 1
  · rw [Bool.eq_iff_iff]
    rw [decide_eq_true_iff, keyPos_none]
    simp
  · simp

end Sqddl.Structs
