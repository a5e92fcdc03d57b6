import Verif.Lemmas.FkGroups

/-!
# The groups of foreign keys of a SQL Server migration
-/

namespace Sqddl
open Go

/-- The foreign keys that are dropped and added again. -/
def Ev.redo? : Ev → Option Constraint
  | .redoFkey c => some c
  | _ => none

/-- Positions are those of groups. -/
def FkGroups.InRange (g : FkGroups) : Prop := ∀ k n, g.pos.get k = some n → n < g.groups.length

theorem FkGroups.add_flatten {g : FkGroups} (h : g.InRange) (c : Constraint) :
    (g.add c).groups.flatten.Perm (g.groups.flatten ++ [c]) := by
  unfold FkGroups.add
  cases hp : g.pos.get (getTablesId c) with
  | some n => exact flatten_modify _ _ _ (h _ _ hp)
  | none => simp

theorem FkGroups.add_inRange {g : FkGroups} (h : g.InRange) (c : Constraint) : (g.add c).InRange := by
  unfold FkGroups.add
  cases hp : g.pos.get (getTablesId c) with
  | some n => intro k m hm; simpa using h k m hm
  | none =>
    intro k m hm
    simp only at hm
    rw [PosMap.get_set] at hm
    split at hm
    · cases hm; simp
    · have := h k m hm; simp; omega

theorem FkGroups.add_pos {g : FkGroups} (c : Constraint) (k : TablesId)
    (h : ((g.add c).pos.get k).isSome) : (g.pos.get k).isSome ∨ k = getTablesId c := by
  unfold FkGroups.add at h
  cases hp : g.pos.get (getTablesId c) with
  | some n => rw [hp] at h; exact Or.inl h
  | none =>
    rw [hp] at h
    simp only at h
    rw [PosMap.get_set] at h
    split at h
    · right; assumption
    · exact Or.inl h

/-- What holds while the events are processed. -/
structure MsGrouped (m : MssqlFkeys) (evs : List Ev) : Prop where
  drop : m.dropFkeys.groups.flatten.Perm (evs.filterMap Ev.dropFkey? ++ evs.filterMap Ev.redo?)
  fast : m.addFastFkeys.groups.flatten.Perm (evs.filterMap Ev.addFastFkey?)
  add : m.addFkeys.groups.flatten.Perm (evs.filterMap Ev.addFkey? ++ evs.filterMap Ev.redo?)
  dropRange : m.dropFkeys.InRange
  fastRange : m.addFastFkeys.InRange
  addRange : m.addFkeys.InRange
  keys : ∀ k, (m.addFkeys.pos.get k).isSome → ∃ c ∈ evs.filterMap Ev.addFkey?, getTablesId c = k

theorem msGrouped_nil : MsGrouped {} [] :=
  ⟨List.Perm.refl _, List.Perm.refl _, List.Perm.refl _, (by intro k n h; cases h),
   (by intro k n h; cases h), (by intro k n h; cases h), (by intro k h; cases h)⟩

theorem perm_swap_end {α : Type} (a b : List α) (c : α) : (a ++ b ++ [c]).Perm (a ++ [c] ++ b) := by
  rw [List.append_assoc, List.append_assoc]
  exact (List.perm_append_comm).append_left a

theorem msGrouped_step {m : MssqlFkeys} {evs : List Ev} (h : MsGrouped m evs) (ev : Ev)
    (hr : ∀ c, ev = .redoFkey c → m.addFkeys.pos.get (getTablesId c) = none) :
    ∃ m', m.step ev = some m' ∧ MsGrouped m' (evs ++ [ev]) := by
  cases ev with
  | dropFkey c =>
    refine ⟨_, rfl, ?_, ?_, ?_, FkGroups.add_inRange h.dropRange c, h.fastRange, h.addRange, ?_⟩
    · simp only [List.filterMap_append, List.filterMap_cons, Ev.dropFkey?, Ev.redo?,
        List.filterMap_nil, List.append_nil]
      exact ((FkGroups.add_flatten h.dropRange c).trans (h.drop.append_right _)).trans
        (perm_swap_end _ _ _)
    · simpa [List.filterMap_cons, Ev.addFastFkey?] using h.fast
    · simpa [List.filterMap_cons, Ev.addFkey?, Ev.redo?] using h.add
    · simpa [List.filterMap_cons, Ev.addFkey?] using h.keys
  | addFastFkey c =>
    refine ⟨_, rfl, ?_, ?_, ?_, h.dropRange, FkGroups.add_inRange h.fastRange c, h.addRange, ?_⟩
    · simpa [List.filterMap_cons, Ev.dropFkey?, Ev.redo?] using h.drop
    · simp only [List.filterMap_append, List.filterMap_cons, Ev.addFastFkey?, List.filterMap_nil]
      exact (FkGroups.add_flatten h.fastRange c).trans (h.fast.append_right _)
    · simpa [List.filterMap_cons, Ev.addFkey?, Ev.redo?] using h.add
    · simpa [List.filterMap_cons, Ev.addFkey?] using h.keys
  | addFkey c =>
    refine ⟨_, rfl, ?_, ?_, ?_, h.dropRange, h.fastRange, FkGroups.add_inRange h.addRange c, ?_⟩
    · simpa [List.filterMap_cons, Ev.dropFkey?, Ev.redo?] using h.drop
    · simpa [List.filterMap_cons, Ev.addFastFkey?] using h.fast
    · simp only [List.filterMap_append, List.filterMap_cons, Ev.addFkey?, Ev.redo?,
        List.filterMap_nil, List.append_nil]
      exact ((FkGroups.add_flatten h.addRange c).trans (h.add.append_right _)).trans
        (perm_swap_end _ _ _)
    · intro k hk
      simp only [List.filterMap_append, List.filterMap_cons, Ev.addFkey?, List.filterMap_nil,
        List.mem_append, List.mem_singleton]
      rcases FkGroups.add_pos c k hk with hk | hk
      · obtain ⟨d, hd, e⟩ := h.keys k hk
        exact ⟨d, Or.inl hd, e⟩
      · exact ⟨c, Or.inr rfl, hk.symm⟩
  | redoFkey c =>
    have hn := hr c rfl
    have hstep : ∀ d, d = (match m.dropFkeys.pos.get (getTablesId c) with
        | some n => { m.dropFkeys with groups := m.dropFkeys.groups.modify n (· ++ [c]) }
        | none => { m.dropFkeys with groups := m.dropFkeys.groups ++ [[c]] }) →
        d.groups.flatten.Perm (m.dropFkeys.groups.flatten ++ [c]) ∧ d.InRange := by
      intro d hd
      subst hd
      cases hp : m.dropFkeys.pos.get (getTablesId c) with
      | some n =>
        exact ⟨flatten_modify _ _ _ (h.dropRange _ _ hp), fun k j hj => by
          simpa using h.dropRange k j hj⟩
      | none =>
        refine ⟨by simp, fun k j hj => ?_⟩
        have := h.dropRange k j hj
        simp only [List.length_append, List.length_singleton]; omega
    obtain ⟨hd1, hd2⟩ := hstep _ rfl
    simp only [MssqlFkeys.step, hn]
    refine ⟨_, rfl, ?_, ?_, ?_, hd2, h.fastRange, ?_, ?_⟩
    · simp only [List.filterMap_append, List.filterMap_cons, Ev.dropFkey?, Ev.redo?,
        List.filterMap_nil, List.append_nil]
      rw [← List.append_assoc]
      exact hd1.trans (h.drop.append_right _)
    · simpa [List.filterMap_cons, Ev.addFastFkey?] using h.fast
    · simp only [List.filterMap_append, List.filterMap_cons, Ev.addFkey?, Ev.redo?,
        List.filterMap_nil, List.append_nil, List.flatten_append, List.flatten_cons, List.flatten_nil]
      rw [← List.append_assoc]
      exact h.add.append_right _
    · intro k j hj
      have := h.addRange k j hj
      simp only [List.length_append, List.length_singleton]; omega
    · simpa [List.filterMap_cons, Ev.addFkey?] using h.keys
  | dropSchema | createSchema | dropTable | createTable | warn | alter =>
    refine ⟨m, rfl, ?_, ?_, ?_, h.dropRange, h.fastRange, h.addRange, ?_⟩
    · simpa [List.filterMap_cons, Ev.dropFkey?, Ev.redo?] using h.drop
    · simpa [List.filterMap_cons, Ev.addFastFkey?] using h.fast
    · simpa [List.filterMap_cons, Ev.addFkey?, Ev.redo?] using h.add
    · simpa [List.filterMap_cons, Ev.addFkey?] using h.keys

/-- If no foreign key that is added leads between the tables of one that is dropped and added again,
the groups are what they should be, and nothing is out of range. -/
theorem mssqlFkeys_grouped (evs : List Ev)
    (h : ∀ c ∈ evs.filterMap Ev.redo?, ∀ d ∈ evs.filterMap Ev.addFkey?,
      getTablesId c ≠ getTablesId d) : ∃ m, mssqlFkeys evs = some m ∧ MsGrouped m evs := by
  suffices ∀ (xs : List Ev) (m : MssqlFkeys) (pre : List Ev), evs = pre ++ xs → MsGrouped m pre →
      ∃ m', xs.foldlM MssqlFkeys.step m = some m' ∧ MsGrouped m' evs by
    exact this evs {} [] rfl msGrouped_nil
  intro xs
  induction xs with
  | nil =>
    intro m pre e hm
    rw [List.append_nil] at e
    subst e
    exact ⟨m, rfl, hm⟩
  | cons x xs ih =>
    intro m pre e hm
    obtain ⟨m', h1, h2⟩ := msGrouped_step hm x (by
      rintro c rfl
      cases hp : m.addFkeys.pos.get (getTablesId c) with
      | none => rfl
      | some n =>
        obtain ⟨d, hd, e2⟩ := hm.keys _ (by rw [hp]; rfl)
        refine absurd e2.symm (h c ?_ d ?_)
        · rw [e]; simp [List.filterMap_cons, Ev.redo?]
        · rw [e]; simp only [List.filterMap_append, List.mem_append]; exact Or.inl hd)
    obtain ⟨m'', h3, h4⟩ := ih m' (pre ++ [x]) (by rw [e]; simp) h2
    refine ⟨m'', ?_, h4⟩
    rw [List.foldlM_cons, h1]
    exact h3

end Sqddl
