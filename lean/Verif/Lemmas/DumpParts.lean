import Verif.Lemmas.MsSteps

/-!
# A database that is created part by part

`part E G ms` is the database `G` without what the list `ms` is still going to create; `E` are schemas
that existed before.
-/

namespace DumpParts
open SqlSpec Sqddl DdlText EngineSpec

/-- Something that is created.  `table`: its columns and its primary key, if it is created together with
the table; `con`: the name by which the constraint is known, and the constraint. -/
inductive Make
  | schema (n : Str)
  | table (nm : Name) (cols : List Col) (pk : Option (Str × Con))
  | con (nm : Name) (n : Str) (c : Con)
  | idx (nm : Name) (x : Idx)

/-- What is created is this schema. -/
def makesSchema (s : Str) : Make → Bool
  | .schema n => n == s
  | _ => false

/-- What is created is this table. -/
def makesTable (k : Key) : Make → Bool
  | .table nm _ _ => key nm == k
  | _ => false

/-- What is created is this constraint. -/
def makesCon (k : Key) (n : Str) : Make → Bool
  | .con nm m _ => key nm == k && m == n
  | _ => false

/-- What is created is this index. -/
def makesIdx (k : Key) (n : Str) : Make → Bool
  | .idx nm x => key nm == k && x.name == n
  | _ => false

/-- The table without what is still to be created. -/
def partTbl (ms : List Make) (k : Key) (u : Tbl) : Tbl where
  col := u.col
  con n := if ms.any (makesCon k n) then none else u.con n
  idx n := if ms.any (makesIdx k n) then none else u.idx n

/-- The database without what is still to be created. -/
def part (E : Str → Bool) (G : Db) (ms : List Make) : Db where
  schema s := E s || (G.schema s && !ms.any (makesSchema s))
  table k := if ms.any (makesTable k) then none else (G.table k).map (partTbl ms k)

/-- The constraints of a table that has at most this one. -/
def onlyCon (pk : Option (Str × Con)) (n : Str) : Option Con :=
  match pk with
  | none => none
  | some p => if n = p.1 then some p.2 else none

/-- `m` can be created before the rest `r`: it is part of `G`, what it needs exists already, and what
belongs to it follows.  `T` is the condition on foreign keys. -/
def Good (T : Db → List Str → Ref → Prop) (E : Str → Bool) (G : Db) : Make → List Make → Prop
  | .schema n, r => G.schema n = true ∧ r.any (makesSchema n) = false ∧
    ∀ k u, G.table k = some u → k.1 = n → r.any (makesTable k) = true
  | .table nm cols pk, r => r.any (makesTable (key nm)) = false ∧
    (cols.map fun c => c.name).Nodup ∧ ∃ u, G.table (key nm) = some u ∧
      u.col = puts (fun c => c.name) (fun _ => none) cols ∧
      (partTbl r (key nm) u).con = onlyCon pk ∧ (partTbl r (key nm) u).idx = fun _ => none
  | .con nm n c, r => r.any (makesTable (key nm)) = false ∧ r.any (makesCon (key nm) n) = false ∧
    ∃ u, G.table (key nm) = some u ∧ u.con n = some c ∧
      ∀ cs ref, c.kind = .foreign cs ref → T (part E G (.con nm n c :: r)) cs ref
  | .idx nm x, r => r.any (makesTable (key nm)) = false ∧ r.any (makesIdx (key nm) x.name) = false ∧
    x.table = some nm ∧ ∃ u, G.table (key nm) = some u ∧ u.idx x.name = some (plainIdx x)

/-- The list can be created one after the other. -/
def Order (T : Db → List Str → Ref → Prop) (E : Str → Bool) (G : Db) : List Make → Prop
  | [] => True
  | m :: r => Good T E G m r ∧ Order T E G r

theorem Order.suffix {T : Db → List Str → Ref → Prop} {E : Str → Bool} {G : Db} {a b : List Make}
    (h : Order T E G (a ++ b)) : Order T E G b := by
  induction a with
  | nil => exact h
  | cons x a ih => exact ih h.2

/-- Elements that can all be created before the rest. -/
theorem Order.prefix {T : Db → List Str → Ref → Prop} {E : Str → Bool} {G : Db} {r : List Make} :
    ∀ (ms : List Make), Order T E G r → (∀ a m b, ms = a ++ m :: b → Good T E G m (b ++ r)) →
    Order T E G (ms ++ r) := by
  intro ms
  induction ms with
  | nil => intro h _; exact h
  | cons m ms ih =>
    intro h hm
    refine ⟨hm [] m ms rfl, ih h fun a x b e => hm (m :: a) x b (by rw [e]; rfl)⟩

section
variable {T : Db → List Str → Ref → Prop} {E : Str → Bool} {G : Db}

theorem part_table {ms : List Make} {k : Key} {t : Tbl} (h : (part E G ms).table k = some t) :
    ms.any (makesTable k) = false ∧ ∃ u, G.table k = some u ∧ t = partTbl ms k u := by
  unfold part at h
  dsimp only at h
  by_cases e : ms.any (makesTable k) = true
  · rw [if_pos e] at h; cases h
  · rw [if_neg e] at h
    obtain ⟨u, h1, h2⟩ := Option.map_eq_some_iff.1 h
    exact ⟨by simpa using e, u, h1, h2.symm⟩

theorem part_table_of {ms : List Make} {k : Key} {u : Tbl} (h : ms.any (makesTable k) = false)
    (hu : G.table k = some u) : (part E G ms).table k = some (partTbl ms k u) := by
  show (if ms.any (makesTable k) = true then none else (G.table k).map _) = _
  rw [h, hu]; rfl

theorem partTbl_con {ms : List Make} {k : Key} {u : Tbl} {n : Str} {c : Con}
    (h : (partTbl ms k u).con n = some c) : ms.any (makesCon k n) = false ∧ u.con n = some c := by
  unfold partTbl at h
  dsimp only at h
  by_cases e : ms.any (makesCon k n) = true
  · rw [if_pos e] at h; cases h
  · rw [if_neg e] at h
    exact ⟨by simpa using e, h⟩

theorem partTbl_con_of {ms : List Make} {k : Key} {u : Tbl} {n : Str}
    (h : ms.any (makesCon k n) = false) : (partTbl ms k u).con n = u.con n := by
  show (if ms.any (makesCon k n) = true then none else u.con n) = _
  rw [h]; rfl

theorem partTbl_idx {ms : List Make} {k : Key} {u : Tbl} {n : Str} {x : Idx}
    (h : (partTbl ms k u).idx n = some x) : ms.any (makesIdx k n) = false ∧ u.idx n = some x := by
  unfold partTbl at h
  dsimp only at h
  by_cases e : ms.any (makesIdx k n) = true
  · rw [if_pos e] at h; cases h
  · rw [if_neg e] at h
    exact ⟨by simpa using e, h⟩

theorem partTbl_idx_of {ms : List Make} {k : Key} {u : Tbl} {n : Str}
    (h : ms.any (makesIdx k n) = false) : (partTbl ms k u).idx n = u.idx n := by
  show (if ms.any (makesIdx k n) = true then none else u.idx n) = _
  rw [h]; rfl

theorem partTbl_nil (k : Key) (u : Tbl) : partTbl [] k u = u := by
  simp [partTbl]

/-- In the end everything exists. -/
theorem part_nil : part E G [] = { G with schema := fun s => E s || G.schema s } := by
  have : ∀ k, partTbl [] k = id := fun k => funext fun u => partTbl_nil k u
  simp [part, this]

/-- In the beginning nothing exists. -/
theorem part_all {ms : List Make} (hs : ∀ s, G.schema s = true → ms.any (makesSchema s) = true)
    (ht : ∀ k u, G.table k = some u → ms.any (makesTable k) = true) :
    part E G ms = ⟨E, fun _ => none⟩ := by
  refine Db.ext (funext fun s => ?_) (funext fun k => ?_)
  · show (E s || (G.schema s && !ms.any (makesSchema s))) = E s
    cases e : G.schema s with
    | false => simp
    | true => simp [hs s e]
  · show (if ms.any (makesTable k) then none else (G.table k).map (partTbl ms k)) = none
    cases e : G.table k with
    | none => simp
    | some u => simp [ht k u e]

/-- The tables that exist are in schemas that exist. -/
theorem schema_exists (hG : ∀ k t, G.table k = some t → G.schema k.1 = true) {ms : List Make}
    (h : Order T E G ms) {k : Key} {t : Tbl} (ht : (part E G ms).table k = some t) :
    (part E G ms).schema k.1 = true := by
  obtain ⟨h1, u, hu, e0⟩ := part_table ht
  clear e0
  have : ms.any (makesSchema k.1) = false := by
    clear ht
    induction ms with
    | nil => rfl
    | cons m r ih =>
      rw [List.any_cons, Bool.or_eq_false_iff] at h1 ⊢
      refine ⟨?_, ih h.2 h1.2⟩
      cases m with
      | schema n =>
        have g := h.1
        show (n == k.1) = false
        rw [beq_eq_false_iff_ne]
        intro e
        have := g.2.2 k u hu e.symm
        rw [h1.2] at this; cases this
      | table nm cols pk => rfl
      | con nm n c => rfl
      | idx nm x => rfl
  show (E k.1 || (G.schema k.1 && !ms.any (makesSchema k.1))) = true
  rw [this, hG k u hu]
  simp

/-! ## One step -/

theorem step_schema {n : Str} {r : List Make} (h : Good T E G (.schema n) r) :
    { part E G (.schema n :: r) with schema := put (part E G (.schema n :: r)).schema n true } =
      part E G r := by
  obtain ⟨h1, h2, h3⟩ := h
  refine Db.ext (funext fun s => ?_) (funext fun k => rfl)
  by_cases e : s = n
  · subst e
    show put _ s true s = (E s || (G.schema s && !r.any (makesSchema s)))
    rw [put_self, h1, h2]; simp
  · show put _ n true s = _
    rw [put_ne _ _ e]
    have : (n == s) = false := by rw [beq_eq_false_iff_ne]; exact fun h => e h.symm
    simp [part, List.any_cons, makesSchema, this]

theorem partTbl_table (nm : Name) (cols : List Col) (pk : Option (Str × Con)) (r : List Make) (k : Key) :
    partTbl (.table nm cols pk :: r) k = partTbl r k := rfl

theorem step_table {nm : Name} {cols : List Col} {pk : Option (Str × Con)} {r : List Make}
    (h : Good T E G (.table nm cols pk) r) :
    (part E G (.table nm cols pk :: r)).table (key nm) = none ∧
    (part E G (.table nm cols pk :: r)).withTable (key nm)
      ⟨puts (fun c => c.name) (fun _ => none) cols, onlyCon pk, fun _ => none⟩ = part E G r := by
  obtain ⟨h1, _, u, hu, h2, h3, h4⟩ := h
  refine ⟨by simp [part, makesTable], Db.ext rfl (funext fun k => ?_)⟩
  by_cases e : k = key nm
  · subst e
    rw [PgSpec.withTable_self, part_table_of h1 hu, ← h3, ← h4, ← h2]
    rfl
  · rw [PgSpec.withTable_other _ e]
    have : (key nm == k) = false := by rw [beq_eq_false_iff_ne]; exact fun h => e h.symm
    show (if (makesTable k _ || r.any (makesTable k)) = true then none else _) = _
    simp only [makesTable, this, Bool.false_or]
    rfl

theorem partTbl_con_other (nm : Name) (n : Str) (c : Con) (r : List Make) {k : Key} (h : k ≠ key nm) :
    partTbl (.con nm n c :: r) k = partTbl r k := by
  have : (key nm == k) = false := by rw [beq_eq_false_iff_ne]; exact fun e => h e.symm
  funext u
  simp [partTbl, List.any_cons, makesCon, makesIdx, this]

theorem step_con {nm : Name} {n : Str} {c : Con} {r : List Make} (h : Good T E G (.con nm n c) r) :
    ∃ u, G.table (key nm) = some u ∧ u.con n = some c ∧
    (part E G (.con nm n c :: r)).table (key nm) = some (partTbl (.con nm n c :: r) (key nm) u) ∧
    (partTbl (.con nm n c :: r) (key nm) u).con n = none ∧
    (part E G (.con nm n c :: r)).withTable (key nm)
      { partTbl (.con nm n c :: r) (key nm) u with
        con := put (partTbl (.con nm n c :: r) (key nm) u).con n (some c) } = part E G r := by
  obtain ⟨h1, h2, u, hu, hc, _⟩ := h
  refine ⟨u, hu, hc, part_table_of (by rw [List.any_cons, h1]; rfl) hu, by simp [partTbl, makesCon],
    Db.ext rfl (funext fun k => ?_)⟩
  by_cases e : k = key nm
  · subst e
    rw [PgSpec.withTable_self, part_table_of h1 hu]
    congr 1
    refine Tbl.ext rfl (funext fun m => ?_) rfl
    by_cases em : m = n
    · subst em
      dsimp only
      rw [put_self, partTbl_con_of h2, hc]
    · dsimp only
      rw [put_ne _ _ em]
      have : (n == m) = false := by rw [beq_eq_false_iff_ne]; exact fun h => em h.symm
      show (if (makesCon (key nm) m (.con nm n c) || r.any (makesCon (key nm) m)) = true then none
        else u.con m) = _
      rw [show makesCon (key nm) m (.con nm n c) = false by simp [makesCon, this], Bool.false_or]
      rfl
  · rw [PgSpec.withTable_other _ e]
    show (if r.any (makesTable k) = true then none else (G.table k).map _) = _
    rw [partTbl_con_other nm n c r e]
    rfl

theorem partTbl_idx_other (nm : Name) (x : Idx) (r : List Make) {k : Key} (h : k ≠ key nm) :
    partTbl (.idx nm x :: r) k = partTbl r k := by
  have : (key nm == k) = false := by rw [beq_eq_false_iff_ne]; exact fun e => h e.symm
  funext u
  simp [partTbl, List.any_cons, makesCon, makesIdx, this]

theorem step_idx {nm : Name} {x : Idx} {r : List Make} (h : Good T E G (.idx nm x) r) :
    ∃ u, G.table (key nm) = some u ∧ u.idx x.name = some (plainIdx x) ∧
    (part E G (.idx nm x :: r)).table (key nm) = some (partTbl (.idx nm x :: r) (key nm) u) ∧
    (partTbl (.idx nm x :: r) (key nm) u).idx x.name = none ∧
    (part E G (.idx nm x :: r)).withTable (key nm)
      { partTbl (.idx nm x :: r) (key nm) u with
        idx := put (partTbl (.idx nm x :: r) (key nm) u).idx x.name (some (plainIdx x)) } =
      part E G r := by
  obtain ⟨h1, h2, _, u, hu, hc⟩ := h
  refine ⟨u, hu, hc, part_table_of (by rw [List.any_cons, h1]; rfl) hu, by simp [partTbl, makesIdx],
    Db.ext rfl (funext fun k => ?_)⟩
  by_cases e : k = key nm
  · subst e
    rw [PgSpec.withTable_self, part_table_of h1 hu]
    congr 1
    refine Tbl.ext rfl rfl (funext fun m => ?_)
    by_cases em : m = x.name
    · subst em
      dsimp only
      rw [put_self, partTbl_idx_of h2, hc]
    · dsimp only
      rw [put_ne _ _ em]
      have : (x.name == m) = false := by rw [beq_eq_false_iff_ne]; exact fun h => em h.symm
      show (if (makesIdx (key nm) m (.idx nm x) || r.any (makesIdx (key nm) m)) = true then none
        else u.idx m) = _
      rw [show makesIdx (key nm) m (.idx nm x) = false by simp [makesIdx, this], Bool.false_or]
      rfl
  · rw [PgSpec.withTable_other _ e]
    show (if r.any (makesTable k) = true then none else (G.table k).map _) = _
    rw [partTbl_idx_other nm x r e]
    rfl

end

end DumpParts
