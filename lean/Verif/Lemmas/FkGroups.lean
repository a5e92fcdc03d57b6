import Verif.Model.Diff
import Verif.Lemmas.CacheOps

/-!
# The groups of foreign keys
-/

namespace Sqddl
open Go

theorem flatten_modify {α : Type} (gs : List (List α)) (n : Nat) (c : α) (h : n < gs.length) :
    (gs.modify n (· ++ [c])).flatten.Perm (gs.flatten ++ [c]) := by
  induction gs generalizing n with
  | nil => cases h
  | cons g gs ih =>
    cases n with
    | zero =>
      simp only [List.modify_zero_cons, List.flatten_cons, List.append_assoc]
      exact (List.perm_append_comm).append_left g
    | succ n =>
      simp only [List.modify_succ_cons, List.flatten_cons, List.append_assoc]
      exact (ih n (by simpa using h)).append_left g

/-- What holds while the foreign keys are grouped. -/
structure Grouped (g : FkGroups) (cs : List Constraint) (ks : List TablesId) : Prop where
  nodup : ks.Nodup
  keys : ∀ k, k ∈ ks ↔ ∃ c ∈ cs, getTablesId c = k
  groups : g.groups = ks.map fun k => cs.filter fun c => getTablesId c == k
  pos : ∀ k n, g.pos.get k = some n ↔ ks[n]? = some k
  perm : g.groups.flatten.Perm cs

theorem grouped_nil : Grouped {} [] [] :=
  ⟨List.nodup_nil, by simp, rfl, by simp [PosMap.get], List.Perm.refl _⟩

theorem grouped_add (g : FkGroups) (cs : List Constraint) (ks : List TablesId) (c : Constraint)
    (h : Grouped g cs ks) : ∃ ks', Grouped (g.add c) (cs ++ [c]) ks' := by
  unfold FkGroups.add
  cases hp : g.pos.get (getTablesId c) with
  | some n =>
    have hk := (h.pos _ _).1 hp
    have hlen : n < ks.length := by
      rcases List.getElem?_eq_some_iff.1 hk with ⟨h1, _⟩; exact h1
    refine ⟨ks, h.nodup, ?_, ?_, h.pos, ?_⟩
    · intro k
      rw [h.keys k]
      constructor
      · rintro ⟨x, hx, e⟩; exact ⟨x, by simp [hx], e⟩
      · rintro ⟨x, hx, e⟩
        rcases List.mem_append.1 hx with hx | hx
        · exact ⟨x, hx, e⟩
        · obtain rfl : x = c := by simpa using hx
          subst e
          exact (h.keys _).1 (List.mem_of_getElem? hk)
    · simp only
      rw [h.groups]
      apply List.ext_getElem?
      intro i
      rw [List.getElem?_modify]
      simp only [List.getElem?_map, List.filter_append]
      by_cases e : n = i
      · subst e
        rw [hk]; simp
      · cases hi : ks[i]? with
        | none => simp
        | some k =>
          have : getTablesId c ≠ k := by
            intro e'
            subst e'
            exact e ((List.getElem?_inj hlen h.nodup).1 (by rw [hk, hi]))
          simp [e, this]
    · have hg : n < g.groups.length := by rw [h.groups]; simpa using hlen
      exact (flatten_modify _ n c hg).trans (h.perm.append_right _)
  | none =>
    have hn : getTablesId c ∉ ks := by
      intro hm
      obtain ⟨n, hn⟩ := List.mem_iff_getElem?.1 hm
      rw [(h.pos _ _).2 hn] at hp; cases hp
    refine ⟨ks ++ [getTablesId c], ?_, ?_, ?_, ?_, ?_⟩
    · rw [List.nodup_append]
      refine ⟨h.nodup, by simp, ?_⟩
      intro a ha b hb e
      rw [List.mem_singleton] at hb
      subst hb e; exact hn ha
    · intro k
      rw [List.mem_append, h.keys k]
      constructor
      · rintro (⟨x, hx, e⟩ | hk)
        · exact ⟨x, by simp [hx], e⟩
        · exact ⟨c, by simp, (List.mem_singleton.1 hk).symm⟩
      · rintro ⟨x, hx, e⟩
        rcases List.mem_append.1 hx with hx | hx
        · exact Or.inl ⟨x, hx, e⟩
        · rw [List.mem_singleton] at hx
          subst hx; exact Or.inr (by simp [e])
    · simp only [List.map_append, List.map_cons, List.map_nil, List.filter_append]
      rw [h.groups]
      congr 1
      · apply List.map_congr_left
        intro k hk
        have : getTablesId c ≠ k := fun e => hn (e ▸ hk)
        simp [this]
      · have : cs.filter (fun x => getTablesId x == getTablesId c) = [] := by
          rw [List.filter_eq_nil_iff]
          intro x hx e
          exact hn ((h.keys _).2 ⟨x, hx, eq_of_beq e⟩)
        simp [this]
    · intro k n
      simp only
      have hl : g.groups.length = ks.length := by rw [h.groups]; simp
      rw [PosMap.get_set, hl]
      by_cases e : k = getTablesId c
      · subst e
        simp only [if_true, Option.some.injEq]
        constructor
        · rintro rfl; simp
        · intro hk
          rw [List.getElem?_append] at hk
          split at hk
          · exact absurd (List.mem_of_getElem? hk) hn
          · rename_i hlt
            have := List.getElem?_eq_some_iff.1 hk
            obtain ⟨h1, _⟩ := this
            simp at h1; omega
      · rw [if_neg e, h.pos, List.getElem?_append]
        split
        · exact Iff.rfl
        · rename_i hlt
          constructor
          · intro hk
            obtain ⟨h1, _⟩ := List.getElem?_eq_some_iff.1 hk
            omega
          · intro hk
            have := List.mem_of_getElem? hk
            rw [List.mem_singleton] at this
            exact absurd this e
    · simp only [List.flatten_append, List.flatten_cons, List.flatten_nil, List.append_nil]
      exact h.perm.append_right _

theorem grouped_fold (cs : List Constraint) :
    ∃ ks, Grouped (cs.foldl FkGroups.add {}) cs ks := by
  suffices ∀ (xs : List Constraint) (g : FkGroups) (cs : List Constraint) (ks : List TablesId), Grouped g cs ks →
      ∃ ks, Grouped (xs.foldl FkGroups.add g) (cs ++ xs) ks by
    simpa using this cs {} [] [] grouped_nil
  intro xs
  induction xs with
  | nil => intro g cs ks h; exact ⟨ks, by simpa using h⟩
  | cons x xs ih =>
    intro g cs ks h
    obtain ⟨ks', h'⟩ := grouped_add g cs ks x h
    have := ih _ _ _ h'
    simpa using this

/-- Every foreign key is in one group. -/
theorem groupFkeys_perm (cs : List Constraint) : (groupFkeys cs).flatten.Perm cs := by
  obtain ⟨ks, h⟩ := grouped_fold cs
  exact h.perm

/-- A group is the foreign keys of two tables, in order. -/
theorem mem_groupFkeys {cs g : List Constraint} (h : g ∈ groupFkeys cs) :
    ∃ k, g = (cs.filter fun c => getTablesId c == k) ∧ g ≠ [] := by
  obtain ⟨ks, hk⟩ := grouped_fold cs
  unfold groupFkeys at h
  rw [hk.groups] at h
  obtain ⟨k, h1, rfl⟩ := List.mem_map.1 h
  obtain ⟨c, hc, e⟩ := (hk.keys k).1 h1
  exact ⟨k, rfl, List.ne_nil_of_mem (List.mem_filter.2 ⟨hc, by simp [e]⟩)⟩

theorem groupFkeys_ne_nil {cs g : List Constraint} (h : g ∈ groupFkeys cs) : g ≠ [] := by
  obtain ⟨_, _, h⟩ := mem_groupFkeys h; exact h

theorem groupFkeys_mem {cs g : List Constraint} {c : Constraint} (h : g ∈ groupFkeys cs) (hc : c ∈ g) :
    c ∈ cs := by
  obtain ⟨_, rfl, _⟩ := mem_groupFkeys h
  exact (List.mem_filter.1 hc).1

/-- The foreign keys of a group are between the same two tables. -/
theorem groupFkeys_id {cs g : List Constraint} {c d : Constraint} (h : g ∈ groupFkeys cs) (hc : c ∈ g)
    (hd : d ∈ g) : getTablesId c = getTablesId d := by
  obtain ⟨_, rfl, _⟩ := mem_groupFkeys h
  rw [eq_of_beq (List.mem_filter.1 hc).2, eq_of_beq (List.mem_filter.1 hd).2]

/-- Equal tables from or to: the four names in one order or the other. -/
theorem getTablesId_cases (c : Constraint) :
    getTablesId c = (c.referencesSchema, c.referencesTable, c.tableSchema, c.tableName) ∨
    getTablesId c = (c.tableSchema, c.tableName, c.referencesSchema, c.referencesTable) := by
  unfold getTablesId
  split
  · exact Or.inl rfl
  · exact Or.inr rfl

end Sqddl
