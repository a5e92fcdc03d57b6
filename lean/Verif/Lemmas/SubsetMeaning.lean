import Verif.Lemmas.SubsetRead
import Verif.Props.Subset

/-!
# The rows that the query of a subset dump selects
-/

namespace SelectSpec
open Go SqlSpec DdlText Sqddl Sqddl.Subset SubsetSpec

section
variable {same : Str → Str → Bool} (hs : Compares same)
include hs

theorem Compares.false_symm {a b : Str} (h : same a b = false) : same b a = false := by
  cases e : same b a with
  | false => rfl
  | true => rw [hs.symm _ _ e] at h; cases h

theorem means_self (t : TableID) : Means same (nm t) (nm t) = true := by
  unfold Means
  rw [hs.refl, Bool.true_and]
  cases (nm t).1 with
  | none => rfl
  | some s => exact hs.refl s

omit hs in
theorem means_apart {t u : TableID} (h : Apart same t u) : Means same (nm t) (nm u) = false := by
  unfold Means
  cases e : same t.2 u.2 with
  | false =>
    have : same (nm t).2 (nm u).2 = false := e
    rw [this, Bool.false_and]
  | true =>
    obtain ⟨h1, h2, h3⟩ := h e
    simp [nm, Render.tableName, h1, h2, h3]

theorem free_apart {t : TableID} (h : Free same t) (n : Nat) :
    Apart same t (resultName n) ∧ Apart same (resultName n) t := by
  refine ⟨fun e => ?_, fun e => ?_⟩
  · rw [hs.false_symm (h.result n)] at e; cases e
  · rw [h.result n] at e; cases e

theorem free_ne {t : TableID} (h : Free same t) (n : Nat) : t ≠ resultName n := by
  rintro rfl
  have := h.result n
  rw [hs.refl] at this
  cases this

/-- Tables with their rows. -/
def scope (E : TableID → Row) (ids : List TableID) : Scope := ids.map fun i => (nm i, E i)

omit hs in
theorem filter_one {α : Type} [DecidableEq α] {l : List α} (hn : l.Nodup) {p : α → Bool} {i : α} (hi : i ∈ l)
    (hp : ∀ j ∈ l, p j = true ↔ j = i) : l.filter p = [i] := by
  induction l with
  | nil => cases hi
  | cons x l ih =>
    rw [List.nodup_cons] at hn
    by_cases hx : x = i
    · subst hx
      rw [List.filter_cons, if_pos ((hp x (by simp)).2 rfl)]
      rw [List.filter_eq_nil_iff.2]
      intro j hj hpj
      exact hn.1 ((hp j (by simp [hj])).1 hpj ▸ hj)
    · rw [List.filter_cons, if_neg (fun h => hx ((hp x (by simp)).1 h))]
      rcases List.mem_cons.1 hi with rfl | hi
      · exact absurd rfl hx
      · exact ih hn.2 hi fun j hj => hp j (by simp [hj])

/-- Tables of a FROM clause that can be told apart. -/
structure Distinct (same : Str → Str → Bool) (ids : List TableID) : Prop where
  nodup : ids.Nodup
  apart : ∀ i ∈ ids, ∀ j ∈ ids, i ≠ j → Apart same i j

theorem filter_scope {ids : List TableID} (h : Distinct same ids) {i : TableID} (hi : i ∈ ids) :
    ids.filter (fun j => Means same (nm i) (nm j)) = [i] := by
  refine filter_one h.nodup hi fun j hj => ⟨fun hm => ?_, fun e => e ▸ means_self hs _⟩
  by_cases e : j = i
  · exact e
  · rw [means_apart (h.apart i hi j hj fun e' => e e'.symm)] at hm
    cases hm

theorem value_scope {ids : List TableID} (h : Distinct same ids) (E : TableID → Row) {i : TableID} (hi : i ∈ ids)
    (c : Str) : value same (scope E ids) (ref i c) = some (E i c) := by
  have : (scope E ids).filter (fun p => Means same (ref i c).item p.1) = [(nm i, E i)] := by
    unfold scope
    rw [List.filter_map]
    have := filter_scope hs h hi
    rw [show ((fun p : Name × Row => Means same (ref i c).item p.1) ∘ fun i => (nm i, E i)) =
      fun j => Means same (nm i) (nm j) from rfl, this]
    rfl
  unfold value
  rw [this]
  rfl

theorem resolves_scope {ids : List TableID} (h : Distinct same ids) {i : TableID} (hi : i ∈ ids) (c : Str) :
    Resolves same (ids.map nm) (ref i c) := by
  unfold Resolves
  rw [List.filter_map, List.length_map]
  have := filter_scope hs h hi
  rw [show ((fun j : Name => Means same (ref i c).item j) ∘ nm) = fun j => Means same (nm i) (nm j) from rfl, this]
  rfl

omit hs in
theorem Distinct.sub {a b : List TableID} (h : Distinct same (a ++ b)) : Distinct same a :=
  ⟨(List.nodup_append.1 h.nodup).1, fun i hi j hj => h.apart i (by simp [hi]) j (by simp [hj])⟩

omit hs in
theorem scope_congr {E E' : TableID → Row} {ids : List TableID} (h : ∀ i ∈ ids, E' i = E i) :
    scope E' ids = scope E ids := List.map_congr_left fun i hi => by rw [h i hi]

omit hs in
theorem scope_append (E : TableID → Row) (a b : List TableID) : scope E (a ++ b) = scope E a ++ scope E b :=
  List.map_append

theorem equal_iff {ids : List TableID} (h : Distinct same ids) (E : TableID → Row) {s : Step} (h1 : s.table ∈ ids)
    (h2 : s.other ∈ ids) :
    (∀ e ∈ (joinOf s).on, Equal same (scope E ids) e) ↔ Agree s.on (E s.table) (E s.other) := by
  simp only [joinOf, List.mem_map, Agree]
  constructor
  · intro hh p hp
    have := hh _ ⟨p, hp, rfl⟩
    unfold Equal at this
    rw [value_scope hs h E h1, value_scope hs h E h2] at this
    obtain ⟨v, e1, e2⟩ := this
    exact ⟨v, by simpa using e1, by simpa using e2⟩
  · rintro hh e ⟨p, hp, rfl⟩
    obtain ⟨v, e1, e2⟩ := hh p hp
    refine ⟨v, ?_, ?_⟩
    · rw [value_scope hs h E h1, e1]
    · rw [value_scope hs h E h2, e2]

variable (db : Db) (env : Env)

theorem joined_iff (steps : List Step) (done : List TableID) (seen : List TableID) (hseen : ∀ x, x ∈ seen ↔ x ∈ done)
    (hv : ValidFrom seen steps) (h : Distinct same (done ++ steps.map (·.table))) (E : TableID → Row) (out : Scope) :
    Joined same db env (scope E done) (steps.map joinOf) out ↔
      ∃ E', (∀ i ∈ done, E' i = E i) ∧ out = scope E' (done ++ steps.map (·.table)) ∧
        ∀ s ∈ steps, rowsOf same db env (nm s.table) (E' s.table) ∧ Agree s.on (E' s.table) (E' s.other) := by
  induction steps generalizing done seen E with
  | nil =>
    simp only [List.map_nil, Joined, List.append_nil]
    constructor
    · rintro rfl
      exact ⟨E, fun _ _ => rfl, rfl, by simp⟩
    · rintro ⟨E', h1, rfl, -⟩
      exact scope_congr h1
  | cons s steps ih =>
    obtain ⟨hv1, hv2, hv3⟩ := hv
    have hn : s.table ∉ done := fun hm => hv1 ((hseen _).2 hm)
    have ho : s.other ∈ done := (hseen _).1 hv2
    have h' : Distinct same ((done ++ [s.table]) ++ steps.map (·.table)) := by simpa using h
    have hd : Distinct same (done ++ [s.table]) := h'.sub
    have ih := ih (done ++ [s.table]) (s.table :: seen) (by simp [hseen, or_comm]) hv3 h'
    have hsc : ∀ (E : TableID → Row), scope E done ++ [((joinOf s).item, E s.table)] = scope E (done ++ [s.table]) := by
      intro E; rw [scope_append]; rfl
    simp only [List.map_cons, Joined]
    constructor
    · rintro ⟨r, hr, heq, hj⟩
      let E1 : TableID → Row := fun i => if i = s.table then r else E i
      have e1 : E1 s.table = r := by simp [E1]
      have e2 : ∀ i ∈ done, E1 i = E i := by
        intro i hi
        have : i ≠ s.table := fun e => hn (e ▸ hi)
        simp [E1, this]
      have e3 : scope E done ++ [((joinOf s).item, r)] = scope E1 (done ++ [s.table]) := by
        rw [← hsc, scope_congr e2, e1]
      rw [e3] at heq hj
      rw [equal_iff hs hd E1 (by simp) (by simp [ho])] at heq
      obtain ⟨E', a1, a2, a3⟩ := (ih E1 ).1 hj
      refine ⟨E', fun i hi => (a1 i (by simp [hi])).trans (e2 i hi), by rw [a2]; simp, ?_⟩
      intro x hx
      rcases List.mem_cons.1 hx with rfl | hx
      · rw [a1 _ (by simp), a1 _ (by simp [ho]), e1]
        rw [e1] at heq
        exact ⟨hr, heq⟩
      · exact a3 x hx
    · rintro ⟨E', a1, a2, a3⟩
      have b := a3 s (by simp)
      have e3 : scope E done ++ [((joinOf s).item, E' s.table)] = scope E' (done ++ [s.table]) := by
        rw [← hsc, scope_congr a1]
      refine ⟨E' s.table, b.1, ?_, ?_⟩
      · rw [e3, equal_iff hs hd E' (by simp) (by simp [ho])]
        exact b.2
      · rw [e3, ih E']
        exact ⟨E', fun _ _ => rfl, by rw [a2]; simp, fun x hx => a3 x (by simp [hx])⟩

theorem validJoins (steps : List Step) (done : List TableID) (seen : List TableID) (hseen : ∀ x, x ∈ seen ↔ x ∈ done)
    (hv : ValidFrom seen steps) (h : Distinct same (done ++ steps.map (·.table))) :
    ValidJoins same (done.map nm) (steps.map joinOf) := by
  induction steps generalizing done seen with
  | nil => trivial
  | cons s steps ih =>
    obtain ⟨hv1, hv2, hv3⟩ := hv
    have ho : s.other ∈ done := (hseen _).1 hv2
    have h' : Distinct same ((done ++ [s.table]) ++ steps.map (·.table)) := by simpa using h
    have ih := ih (done ++ [s.table]) (s.table :: seen) (by simp [hseen, or_comm]) hv3 h'
    rw [List.map_append, List.map_cons, List.map_nil] at ih
    refine ⟨?_, ih⟩
    intro e he
    obtain ⟨p, _, rfl⟩ := List.mem_map.1 he
    have : done.map nm ++ [(joinOf s).item] = (done ++ [s.table]).map nm := by rw [List.map_append]; rfl
    rw [this]
    exact ⟨resolves_scope hs h'.sub (by simp) _, resolves_scope hs h'.sub (by simp [ho]) _⟩

theorem from_iff (t : TableID) (cols : List Str) (steps : List Step) (hv : ValidFrom [t] steps)
    (h : Distinct same (t :: steps.map (·.table))) (out : Scope) :
    From same db env (selOf t cols (t, steps)) out ↔
      ∃ E : TableID → Row, out = scope E (t :: steps.map (·.table)) ∧ rowsOf same db env (nm t) (E t) ∧
        ∀ s ∈ steps, rowsOf same db env (nm s.table) (E s.table) ∧ Agree s.on (E s.table) (E s.other) := by
  unfold From
  have key := fun E => joined_iff hs db env steps [t] [t] (fun _ => Iff.rfl) hv h E out
  constructor
  · rintro ⟨r, hr, hj⟩
    obtain ⟨E', a1, a2, a3⟩ := (key (fun _ => r)).1 hj
    refine ⟨E', a2, ?_, a3⟩
    rw [a1 t (by simp)]
    exact hr
  · rintro ⟨E, a1, a2, a3⟩
    exact ⟨E t, a2, (key E).2 ⟨E, fun _ _ => rfl, a1, a3⟩⟩

theorem values_scope {ids : List TableID} (h : Distinct same ids) (E : TableID → Row) {i : TableID} (hi : i ∈ ids)
    (cols : List Str) : values same (scope E ids) (cols.map (ref i)) = some (cols.map (E i)) := by
  unfold values
  exact mapM_map_some _ _ _ _ fun c _ => value_scope hs h E hi c

end

end SelectSpec
