import Verif.Lemmas.DumpText

/-!
# The order of a dump

Schemas, tables, indexes and constraints are created in an order in which everything a thing needs comes
before it.
-/

namespace DumpParts
open SqlSpec Sqddl DdlText EngineSpec

/-- What is created. -/
inductive Id
  | schema (n : Str)
  | table (k : Key)
  | con (k : Key) (n : Str)
  | idx (k : Key) (n : Str)

/-- What is created. -/
def ident : Make → Id
  | .schema n => .schema n
  | .table nm _ _ => .table (key nm)
  | .con nm n _ => .con (key nm) n
  | .idx nm x => .idx (key nm) x.name

theorem any_schema (ms : List Make) (n : Str) :
    ms.any (makesSchema n) = true ↔ Id.schema n ∈ ms.map ident := by
  rw [List.any_eq_true, List.mem_map]
  refine exists_congr fun m => and_congr_right fun _ => ?_
  cases m <;> simp [makesSchema, ident]

theorem any_table (ms : List Make) (k : Key) :
    ms.any (makesTable k) = true ↔ Id.table k ∈ ms.map ident := by
  rw [List.any_eq_true, List.mem_map]
  refine exists_congr fun m => and_congr_right fun _ => ?_
  cases m <;> simp [makesTable, ident]

theorem any_con (ms : List Make) (k : Key) (n : Str) :
    ms.any (makesCon k n) = true ↔ Id.con k n ∈ ms.map ident := by
  rw [List.any_eq_true, List.mem_map]
  refine exists_congr fun m => and_congr_right fun _ => ?_
  cases m <;> simp [makesCon, ident]

theorem any_idx (ms : List Make) (k : Key) (n : Str) :
    ms.any (makesIdx k n) = true ↔ Id.idx k n ∈ ms.map ident := by
  rw [List.any_eq_true, List.mem_map]
  refine exists_congr fun m => and_congr_right fun _ => ?_
  cases m <;> simp [makesIdx, ident]

theorem any_false {p : Make → Bool} {ms : List Make} {i : Id}
    (h : ms.any p = true ↔ i ∈ ms.map ident) (hi : i ∉ ms.map ident) : ms.any p = false := by
  cases e : ms.any p with
  | false => rfl
  | true => exact absurd (h.1 e) hi

theorem ident_after {a b : List Make} {m : Make} (h : ((a ++ m :: b).map ident).Nodup) :
    ident m ∉ b.map ident := by
  rw [List.map_append, List.map_cons] at h
  exact (List.nodup_cons.1 (List.nodup_append.1 h).2.1).1

section
variable {T : Db → List Str → Ref → Prop} {E : Str → Bool} {G : Db} {S Tb X C : List Make}

/-- What has to be known about the four parts of a dump. -/
structure Parts (G : Db) (S Tb X C : List Make) : Prop where
  nodup : ((S ++ (Tb ++ (X ++ C))).map ident).Nodup
  schemas : ∀ m ∈ S, ∃ n, m = .schema n ∧ G.schema n = true
  tables : ∀ m ∈ Tb, ∃ nm cols pk u, m = .table nm cols pk ∧ (cols.map fun c => c.name).Nodup ∧
    G.table (key nm) = some u ∧ u.col = puts (fun c => c.name) (fun _ => none) cols ∧
    (∀ n c, u.con n = some c → pk = some (n, c) ∨ Id.con (key nm) n ∈ C.map ident) ∧
    (∀ p ∈ pk, u.con p.1 = some p.2 ∧ Id.con (key nm) p.1 ∉ C.map ident) ∧
    ∀ n x, u.idx n = some x → Id.idx (key nm) n ∈ X.map ident
  indexes : ∀ m ∈ X, ∃ nm x u, m = .idx nm x ∧ x.table = some nm ∧ G.table (key nm) = some u ∧
    u.idx x.name = some (plainIdx x)
  cons : ∀ m ∈ C, ∃ nm n c u, m = .con nm n c ∧ G.table (key nm) = some u ∧ u.con n = some c
  all : ∀ k u, G.table k = some u → Id.table k ∈ Tb.map ident
  allSchemas : ∀ s, G.schema s = true → Id.schema s ∈ S.map ident

theorem Parts.no_table {k : Key} (h : Parts G S Tb X C) {b r : List Make}
    (hb : ∀ m ∈ b, m ∈ X ∨ m ∈ C) (hr : r = b) : Id.table k ∉ r.map ident := by
  subst hr
  intro hm
  obtain ⟨m, h1, h2⟩ := List.mem_map.1 hm
  rcases hb m h1 with h3 | h3
  · obtain ⟨nm, x, u, rfl, _⟩ := h.indexes m h3
    cases h2
  · obtain ⟨nm, n, c, u, rfl, _⟩ := h.cons m h3
    cases h2

theorem Parts.no_idx {k : Key} {n : Str} (h : Parts G S Tb X C) {b : List Make}
    (hb : ∀ m ∈ b, m ∈ C) : Id.idx k n ∉ b.map ident := by
  intro hm
  obtain ⟨m, h1, h2⟩ := List.mem_map.1 hm
  obtain ⟨nm, n, c, u, rfl, _⟩ := h.cons m (hb m h1)
  cases h2

/-- The parts can be created one after the other. -/
theorem Parts.order (h : Parts G S Tb X C)
    (hF : ∀ a nm n c b, C = a ++ .con nm n c :: b → ∀ cs ref, c.kind = .foreign cs ref →
      T (part E G (.con nm n c :: b)) cs ref) :
    Order T E G (S ++ (Tb ++ (X ++ C))) := by
  have hc : Order T E G (C ++ []) := by
    refine Order.prefix C (r := []) trivial fun a m b e => ?_
    have hb : ∀ m ∈ b, m ∈ C := fun y hy => by rw [e]; simp [hy]
    obtain ⟨nm, n, c, u, rfl, hu, hcon⟩ := h.cons m (by rw [e]; simp)
    have hn := h.nodup
    rw [e, ← List.append_assoc, ← List.append_assoc, ← List.append_assoc] at hn
    refine ⟨any_false (any_table _ _) ?_, any_false (any_con _ _ _) ?_, u, hu, hcon, ?_⟩
    · exact h.no_table (b := b ++ []) (fun y hy => .inr (hb y (by simpa using hy))) rfl
    · rw [List.append_nil]; exact ident_after hn
    · rw [List.append_nil]; exact hF a nm n c b e
  rw [List.append_nil] at hc
  have hx : Order T E G (X ++ C) := by
    refine Order.prefix X hc fun a m b e => ?_
    obtain ⟨nm, x, u, rfl, ht, hu, hidx⟩ := h.indexes m (by rw [e]; simp)
    have hn := h.nodup
    have e2 : S ++ (Tb ++ (X ++ C)) = (S ++ (Tb ++ a)) ++ .idx nm x :: (b ++ C) := by rw [e]; simp
    rw [e2] at hn
    refine ⟨any_false (any_table _ _) ?_, any_false (any_idx _ _ _) (ident_after hn), ht, u, hu, hidx⟩
    refine h.no_table (b := b ++ C) (fun y hy => ?_) rfl
    rcases List.mem_append.1 hy with hy | hy
    · exact .inl (by rw [e]; simp [hy])
    · exact .inr hy
  have htb : Order T E G (Tb ++ (X ++ C)) := by
    refine Order.prefix Tb hx fun a m b e => ?_
    obtain ⟨nm, cols, pk, u, rfl, hcols, hu, hcol, h1, h2, h3⟩ := h.tables m (by rw [e]; simp)
    have hb : ∀ m ∈ b, m ∈ Tb := fun y hy => by rw [e]; simp [hy]
    have hn := h.nodup
    have e2 : S ++ (Tb ++ (X ++ C)) = (S ++ a) ++ .table nm cols pk :: (b ++ (X ++ C)) := by rw [e]; simp
    rw [e2] at hn
    have inC : ∀ k n, Id.con k n ∈ (b ++ (X ++ C)).map ident → Id.con k n ∈ C.map ident := by
      intro k n hm
      obtain ⟨m, hm, hi⟩ := List.mem_map.1 hm
      rcases List.mem_append.1 hm with hm | hm
      · obtain ⟨nm, cols, pk, u, rfl, _⟩ := h.tables m (hb m hm)
        cases hi
      · rcases List.mem_append.1 hm with hm | hm
        · obtain ⟨nm, x, u, rfl, _⟩ := h.indexes m hm
          cases hi
        · exact List.mem_map.2 ⟨m, hm, hi⟩
    refine ⟨any_false (any_table _ _) (ident_after hn), hcols, u, hu, hcol, ?_, ?_⟩
    · funext n
      show (if (b ++ (X ++ C)).any (makesCon (key nm) n) = true then none else u.con n) = onlyCon pk n
      by_cases hm : (b ++ (X ++ C)).any (makesCon (key nm) n) = true
      · rw [if_pos hm]
        have hc := inC _ _ ((any_con _ _ _).1 hm)
        cases pk with
        | none => rfl
        | some p =>
          show none = if n = p.1 then some p.2 else none
          rw [if_neg]
          intro en
          exact (h2 p rfl).2 (en ▸ hc)
      · rw [if_neg hm]
        cases e4 : u.con n with
        | none =>
          cases pk with
          | none => rfl
          | some p =>
            show none = if n = p.1 then some p.2 else none
            rw [if_neg]
            intro en
            have := (h2 p rfl).1
            rw [← en, e4] at this; cases this
        | some c =>
          rcases h1 n c e4 with rfl | hc
          · show some c = if n = n then some c else none
            rw [if_pos rfl]
          · exact absurd ((any_con _ _ _).2 (by
              rw [List.map_append, List.map_append]
              exact List.mem_append.2 (.inr (List.mem_append.2 (.inr hc))))) hm
    · funext n
      show (if (b ++ (X ++ C)).any (makesIdx (key nm) n) = true then none else u.idx n) = none
      cases e4 : u.idx n with
      | none => simp
      | some x =>
        rw [if_pos]
        refine (any_idx _ _ _).2 ?_
        rw [List.map_append, List.map_append]
        exact List.mem_append.2 (.inr (List.mem_append.2 (.inl (h3 n x e4))))
  refine Order.prefix S htb fun a m b e => ?_
  obtain ⟨n, rfl, hs⟩ := h.schemas m (by rw [e]; simp)
  have hn := h.nodup
  have e2 : S ++ (Tb ++ (X ++ C)) = a ++ .schema n :: (b ++ (Tb ++ (X ++ C))) := by rw [e]; simp
  rw [e2] at hn
  refine ⟨hs, any_false (any_schema _ _) (ident_after hn), fun k u hu _ => (any_table _ _).2 ?_⟩
  rw [List.map_append, List.map_append]
  exact List.mem_append.2 (.inr (List.mem_append.2 (.inl (h.all k u hu))))

/-- In the beginning nothing exists. -/
theorem Parts.start (h : Parts G S Tb X C) :
    part E G (S ++ (Tb ++ (X ++ C))) = DumpSpec.empty E := by
  refine part_all ?_ ?_
  · intro s hs
    refine (any_schema _ _).2 ?_
    rw [List.map_append]
    exact List.mem_append.2 (.inl (h.allSchemas s hs))
  · intro k u hu
    refine (any_table _ _).2 ?_
    rw [List.map_append, List.map_append]
    exact List.mem_append.2 (.inr (List.mem_append.2 (.inl (h.all k u hu))))

/-- Before the constraints are created, all tables and indexes are there. -/
theorem Parts.target (h : Parts G S Tb X C) {r : List Make} (hr : ∀ m ∈ r, m ∈ C) {k : Key} {u : Tbl}
    (hu : G.table k = some u) :
    (part E G r).table k = some (partTbl r k u) ∧ (partTbl r k u).col = u.col ∧
      (partTbl r k u).idx = u.idx := by
  refine ⟨part_table_of (any_false (any_table _ _) (h.no_table (fun y hy => .inr (hr y hy)) rfl)) hu, rfl,
    funext fun n => partTbl_idx_of (any_false (any_idx _ _ _) (h.no_idx hr))⟩

end

end DumpParts
