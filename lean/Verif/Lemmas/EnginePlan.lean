import Verif.Lemmas.Engine

/-!
# The states of a database between two versions
-/

namespace EngineSpec
open SqlSpec Sqddl DdlText

/-- The database has no constraint of this name in this table. -/
def lacks (db : Db) (k : Key) (n : Str) : Bool := ((db.table k).bind fun t => t.con n).isNone

theorem lacks_false {db : Db} {k : Key} {n : Str} :
    lacks db k n = false ↔ ∃ t c, db.table k = some t ∧ t.con n = some c := by
  unfold lacks
  cases db.table k with
  | none => simp
  | some t => cases h : t.con n <;> simp [h]

/-- A foreign key is the same in both versions. -/
def Compatible (S T : Db) : Prop :=
  ∀ k s t n c d, S.table k = some s → T.table k = some t → s.con n = some c → t.con n = some d →
    (isF c = true ∨ isF d = true) → c = d

/-- A new table that is not finished: its foreign keys are missing, and perhaps indexes. -/
def Part (u t : Tbl) : Prop :=
  t.col = u.col ∧ (∀ n c, t.con n = some c → u.con n = some c ∧ isF c = false) ∧
  ∀ n x, t.idx n = some x → u.idx n = some x

/-- A state on the way from `S` to `T`, after the surplus foreign keys are dropped and before the new
ones are added. -/
structure Between (S T db : Db) : Prop where
  schema : ∀ k t, db.table k = some t → db.schema k.1 = true
  version : ∀ k t, db.table k = some t → (S.cut (lacks T)).table k = some t ∨
    (T.cut (lacks S)).table k = some t ∨ (S.table k = none ∧ ∃ u, T.table k = some u ∧ Part u t)
  kept : ∀ k, (S.table k).isSome → (T.table k).isSome → (db.table k).isSome

section
variable {S T db : Db} (hS : S.Consistent) (hT : T.Consistent) (hc : Compatible S T)
  (h : Between S T db)
include hc h

/-- The foreign keys of such a state are in both versions. -/
theorem Between.both {k : Key} {t : Tbl} {n : Str} {c : Con} (ht : db.table k = some t)
    (hn : t.con n = some c) (hf : isF c = true) :
    ∃ s u, S.table k = some s ∧ T.table k = some u ∧ s.con n = some c ∧ u.con n = some c := by
  rcases h.version k t ht with h1 | h1 | ⟨h0, u, h1, h2, h3, h4⟩
  · obtain ⟨s, hs, rfl⟩ := dcut_table.1 h1
    obtain ⟨h2, h3⟩ := cut_con.1 hn
    rw [hf, Bool.true_and] at h3
    obtain ⟨u, d, hu, hd⟩ := lacks_false.1 h3
    have := hc k s u n c d hs hu h2 hd (Or.inl hf)
    subst this
    exact ⟨s, u, hs, hu, h2, hd⟩
  · obtain ⟨u, hu, rfl⟩ := dcut_table.1 h1
    obtain ⟨h2, h3⟩ := cut_con.1 hn
    rw [hf, Bool.true_and] at h3
    obtain ⟨s, d, hs, hd⟩ := lacks_false.1 h3
    have := hc k s u n d c hs hu hd h2 (Or.inr hf)
    subst this
    exact ⟨s, u, hs, hu, hd, h2⟩
  · have := (h3 n c hn).2
    rw [hf] at this; cases this

include hS hT in
/-- A server accepts such a state. -/
theorem Between.consistent : db.Consistent where
  schema := h.schema
  sound := by
    intro k t ht
    rcases h.version k t ht with h1 | h1 | ⟨h0, u, h1, h2, h3, h4⟩
    · obtain ⟨s, hs, rfl⟩ := dcut_table.1 h1
      exact cut_sound (hS.sound k s hs)
    · obtain ⟨s, hs, rfl⟩ := dcut_table.1 h1
      exact cut_sound (hT.sound k s hs)
    · have hu := hT.sound k u h1
      exact {
        nonempty := by rw [h2]; exact hu.nonempty
        con := fun n c hn => by rw [h2]; exact hu.con n c (h3 n c hn).1
        idx := fun n x hn => by rw [h2]; exact hu.idx n x (h4 n x hn)
        names := fun n c x hn hx => hu.names n c x (h3 n c hn).1 (h4 n x hx) }
  fkey := by
    intro k t n c cols ref ht hn hk
    obtain ⟨s, u, hs, hu, h1, h2⟩ := h.both hc ht hn ((isF_iff c).2 ⟨cols, ref, hk⟩)
    obtain ⟨g1, r1, g2, g3, g4⟩ := hS.fkey k s n c cols ref hs h1 hk
    obtain ⟨_, r2, g5, g6, g7⟩ := hT.fkey k u n c cols ref hu h2 hk
    have hkept := h.kept (key ref.table) (by rw [g2]; rfl) (by rw [g5]; rfl)
    obtain ⟨r, hr⟩ := Option.isSome_iff_exists.1 hkept
    refine ⟨g1, r, hr, ?_⟩
    rcases h.version _ r hr with h1 | h1 | ⟨h0, _⟩
    · obtain ⟨x, hx, rfl⟩ := dcut_table.1 h1
      rw [g2] at hx; cases hx
      exact ⟨g3, cut_key.2 g4⟩
    · obtain ⟨x, hx, rfl⟩ := dcut_table.1 h1
      rw [g5] at hx; cases hx
      exact ⟨g6, cut_key.2 g7⟩
    · rw [g2] at h0; cases h0
  names := by
    intro s a b t u n c d cols ref cols' ref' h1 h2 h3 h4 h5 h6
    obtain ⟨_, t', _, e1, _, e2⟩ := h.both hc h1 h3 ((isF_iff c).2 ⟨_, _, h5⟩)
    obtain ⟨_, u', _, e3, _, e4⟩ := h.both hc h2 h4 ((isF_iff d).2 ⟨_, _, h6⟩)
    exact hT.names s a b t' u' n c d cols ref cols' ref' e1 e3 e2 e4 h5 h6

end

/-- Statements that keep an invariant, several for every element. -/
theorem runs_flatMap {α : Type} (f : α → List Stmt) (P : List α → Db → Prop)
    (hs : ∀ x xs db, P (x :: xs) db → ∃ m, Runs db (f x) m ∧ P xs m) :
    ∀ xs db, P xs db → ∃ db', Runs db (xs.flatMap f) db' ∧ P [] db' := by
  intro xs
  induction xs with
  | nil => intro db h; exact ⟨db, rfl, h⟩
  | cons x xs ih =>
    intro db h
    obtain ⟨m, h1, h2⟩ := hs x xs db h
    obtain ⟨db', h3, h4⟩ := ih m h2
    exact ⟨db', runs_append db _ _ m db' h1 h3, h4⟩

/-! ## The phases -/

section
variable {S T : Db} (hS : S.Consistent) (hT : T.Consistent) (hc : Compatible S T)

include hS in
/-- Foreign keys are dropped. -/
theorem phase_dropFkeys {α : Type} (xs : List α) (nm : α → Name) (cn : α → Str)
    (h0 : (xs.map fun x => (key (nm x), cn x)).Nodup)
    (hx : ∀ x ∈ xs, ∃ t c, S.table (key (nm x)) = some t ∧ t.con (cn x) = some c ∧ isF c = true) :
    Runs S (xs.map fun x => .alterTable (nm x) [.dropConstraint (cn x)])
      (S.cut fun k n => decide ((k, n) ∈ xs.map fun x => (key (nm x), cn x))) := by
  have := runs_fold (fun x => Stmt.alterTable (nm x) [.dropConstraint (cn x)])
    (fun ys db => (∃ zs, xs = zs ++ ys ∧
      db = S.cut fun k n => decide ((k, n) ∈ zs.map fun x => (key (nm x), cn x))))
    (by rintro ys db ⟨zs, _, rfl⟩; exact dcut_consistent hS)
    (by
      rintro y ys db ⟨zs, e, rfl⟩
      obtain ⟨t, c, h1, h2, h3⟩ := hx y (by simp [e])
      have hnot : (key (nm y), cn y) ∉ zs.map fun x => (key (nm x), cn x) := by
        intro hm
        rw [e, List.map_append, List.map_cons] at h0
        exact (List.nodup_append.1 h0).2.2 _ hm _ (by simp) rfl
      refine ⟨_, step_dropFkey (t := t.cut _) (dcut_table.2 ⟨t, h1, rfl⟩)
        (cut_con.2 ⟨h2, by simpa using fun _ => by simpa using hnot⟩) h3 (nm y) rfl, ?_⟩
      refine ⟨zs ++ [y], by simp [e], ?_⟩
      rw [cut_cut]
      congr 1
      funext k n
      rw [Bool.eq_iff_iff]
      simp [or_comm])
    xs S ⟨[], rfl, by
      have : Tbl.cut (fun _ => false) = id := by funext t; simp [Tbl.cut, filter_true]
      simp [Db.cut, this]⟩
  obtain ⟨db', h1, zs, h2, h3⟩ := this
  simp only [List.append_nil] at h2
  subst h2; subst h3
  exact h1

include hT in
/-- Foreign keys are added. -/
theorem phase_addFkeys {α : Type} (xs : List α) (nm : α → Name) (cn : α → Con)
    (h0 : (xs.map fun x => (key (nm x), conId (cn x))).Nodup)
    (hx : ∀ x ∈ xs, isF (cn x) = true ∧ ∃ t, T.table (key (nm x)) = some t ∧
      t.con (conId (cn x)) = some (cn x)) :
    Runs (T.cut fun k n => decide ((k, n) ∈ xs.map fun x => (key (nm x), conId (cn x))))
      (xs.map fun x => .alterTable (nm x) [.addConstraint (cn x)]) T := by
  have := runs_fold (fun x => Stmt.alterTable (nm x) [.addConstraint (cn x)])
    (fun ys db => (∃ zs, xs = zs ++ ys ∧
      db = T.cut fun k n => decide ((k, n) ∈ ys.map fun x => (key (nm x), conId (cn x)))))
    (by rintro ys db ⟨zs, _, rfl⟩; exact dcut_consistent hT)
    (by
      rintro y ys db ⟨zs, e, rfl⟩
      obtain ⟨h1, t, h2, h3⟩ := hx y (by simp [e])
      refine ⟨_, step_addFkey h2 h3 h1 rfl (by simp) (nm y) rfl, zs ++ [y], by simp [e], ?_⟩
      have hnot : (key (nm y), conId (cn y)) ∉ ys.map fun x => (key (nm x), conId (cn x)) := by
        rw [e, List.map_append, List.map_cons] at h0
        exact (List.nodup_cons.1 (List.nodup_append.1 h0).2.1).1
      congr 1
      funext k n
      rw [Bool.eq_iff_iff]
      simp only [List.map_cons, List.mem_cons, Bool.and_eq_true, Bool.not_eq_true',
        decide_eq_true_eq, decide_eq_false_iff_not, Prod.mk.injEq]
      constructor
      · rintro ⟨h4 | h4, h5⟩
        · exact absurd h4 h5
        · exact h4
      · intro h4
        refine ⟨Or.inr h4, ?_⟩
        rintro ⟨rfl, rfl⟩
        exact hnot h4)
    xs _ ⟨[], rfl, rfl⟩
  obtain ⟨db', h1, zs, h2, h3⟩ := this
  have : Tbl.cut (fun _ => false) = id := by funext t; simp [Tbl.cut, filter_true]
  simp [Db.cut, this] at h3
  have h4 : db' = T := h3
  rw [← h4]
  rw [h4]
  exact h4 ▸ h1

include hS hT hc

/-- Schemas are dropped. -/
theorem phase_dropSchemas (ns : List Str) (h0 : ns.Nodup)
    (hn : ∀ n, n ∈ ns ↔ S.schema n = true ∧ T.schema n = false) :
    Runs (S.cut (lacks T)) (ns.map .dropSchema)
      { schema := fun s => S.schema s && T.schema s
        table := fun k => if T.schema k.1 then (S.cut (lacks T)).table k else none } := by
  have hS1 := dcut_consistent (p := lacks T) hS
  have hrun := runs_fold Stmt.dropSchema
    (fun ys db => ys.Nodup ∧ (∀ y ∈ ys, y ∈ ns) ∧
      db = { schema := fun s => S.schema s && (decide (s ∈ ys) || T.schema s)
             table := fun k => if k.1 ∈ ys ∨ T.schema k.1 = true then (S.cut (lacks T)).table k
               else none })
    (by
      rintro ys db ⟨_, hy, rfl⟩
      refine Between.consistent hS hT hc ⟨?_, ?_, ?_⟩
      · intro k t ht
        simp only at ht ⊢
        split at ht
        · rename_i h
          have := hS1.schema k t ht
          simp only [Db.cut] at this
          simp [this, h]
        · cases ht
      · intro k t ht
        simp only at ht
        split at ht
        · exact Or.inl ht
        · cases ht
      · intro k h1 h2
        obtain ⟨t, ht⟩ := Option.isSome_iff_exists.1 h2
        have := hT.schema k t ht
        simp only [this, or_true, if_true]
        simpa [Db.cut] using h1)
    (by
      rintro y ys db ⟨hnd, hy, rfl⟩
      obtain ⟨h1, h2⟩ := List.nodup_cons.1 hnd
      refine ⟨_, rfl, h2, fun z hz => hy z (by simp [hz]), ?_⟩
      have hTy := ((hn y).1 (hy y (by simp))).2
      congr 1
      · funext s
        by_cases e : s = y
        · subst e; simp [put, h1, hTy]
        · simp [put, e]
      · funext k
        by_cases e : k.1 = y
        · simp [e, h1, hTy]
        · simp [e])
    ns (S.cut (lacks T)) ⟨h0, fun _ => id, by
      have : ∀ s, S.schema s = (S.schema s && (decide (s ∈ ns) || T.schema s)) := by
        intro s
        have := hn s
        cases e1 : S.schema s <;> cases e2 : T.schema s <;> simp_all
      refine Db.ext (funext this) (funext fun k => ?_)
      show (S.cut (lacks T)).table k = if _ then _ else none
      split
      · rfl
      · rename_i h
        cases e : (S.cut (lacks T)).table k with
        | none => rfl
        | some t =>
          have h3 := hS1.schema k t e
          simp only [Db.cut] at h3
          have h4 := (hn k.1).2
          rw [h3] at h4
          cases e2 : T.schema k.1 with
          | true => exact absurd (Or.inr e2) h
          | false => exact absurd (Or.inl (h4 ⟨rfl, e2⟩)) h⟩
  obtain ⟨db', h1, _, _, rfl⟩ := hrun
  simpa using h1

/-- Schemas are created. -/
theorem phase_createSchemas (ns : List Str) (h0 : ns.Nodup)
    (hn : ∀ n, n ∈ ns ↔ T.schema n = true ∧ S.schema n = false) :
    Runs
      { schema := fun s => S.schema s && T.schema s
        table := fun k => if T.schema k.1 then (S.cut (lacks T)).table k else none }
      (ns.map .createSchema)
      { schema := T.schema
        table := fun k => if T.schema k.1 then (S.cut (lacks T)).table k else none } := by
  have hS1 := dcut_consistent (p := lacks T) hS
  have hrun := runs_fold Stmt.createSchema
    (fun ys db => ys.Nodup ∧ (∀ y ∈ ys, y ∈ ns) ∧
      db = { schema := fun s => T.schema s && !decide (s ∈ ys)
             table := fun k => if T.schema k.1 then (S.cut (lacks T)).table k else none })
    (by
      rintro ys db ⟨_, hy, rfl⟩
      refine Between.consistent hS hT hc ⟨?_, ?_, ?_⟩
      · intro k t ht
        simp only at ht ⊢
        split at ht
        · rename_i h
          have := hS1.schema k t ht
          simp only [Db.cut] at this
          have h4 : k.1 ∉ ys := by
            intro hk
            have := ((hn k.1).1 (hy _ hk)).2
            simp_all
          simp [h, h4]
        · cases ht
      · intro k t ht
        simp only at ht
        split at ht
        · exact Or.inl ht
        · cases ht
      · intro k h1 h2
        obtain ⟨t, ht⟩ := Option.isSome_iff_exists.1 h2
        have := hT.schema k t ht
        simp only [this, if_true]
        simpa [Db.cut] using h1)
    (by
      rintro y ys db ⟨hnd, hy, rfl⟩
      obtain ⟨h1, h2⟩ := List.nodup_cons.1 hnd
      refine ⟨_, rfl, h2, fun z hz => hy z (by simp [hz]), ?_⟩
      have hTy := ((hn y).1 (hy y (by simp))).1
      congr 1
      funext s
      by_cases e : s = y
      · subst e; simp [put, h1, hTy]
      · simp [put, e])
    ns { schema := fun s => S.schema s && T.schema s
         table := fun k => if T.schema k.1 then (S.cut (lacks T)).table k else none }
      ⟨h0, fun _ => id, by
      congr 1
      funext s
      have := hn s
      cases e1 : S.schema s <;> cases e2 : T.schema s <;> simp_all⟩
  obtain ⟨db', h1, _, _, rfl⟩ := hrun
  simpa using h1

/-- Tables are dropped. -/
theorem phase_dropTables {α : Type} (xs : List α) (nm : α → Name)
    (h0 : (xs.map fun x => key (nm x)).Nodup)
    (hn : ∀ k, k ∈ (xs.map fun x => key (nm x)) ↔ (S.table k).isSome ∧ T.table k = none ∧
      T.schema k.1 = true) :
    Runs
      { schema := T.schema
        table := fun k => if T.schema k.1 then (S.cut (lacks T)).table k else none }
      (xs.map fun x => .dropTable (nm x))
      { schema := T.schema
        table := fun k => if (T.table k).isSome then (S.cut (lacks T)).table k else none } := by
  have hS1 := dcut_consistent (p := lacks T) hS
  have hrun := runs_fold (fun x => Stmt.dropTable (nm x))
    (fun ys db => (ys.map fun x => key (nm x)).Nodup ∧ (∀ y ∈ ys, y ∈ xs) ∧
      db = { schema := T.schema
             table := fun k => if k ∈ (ys.map fun x => key (nm x)) ∨ (T.table k).isSome then
               (S.cut (lacks T)).table k else none })
    (by
      rintro ys db ⟨_, hy, rfl⟩
      refine Between.consistent hS hT hc ⟨?_, ?_, ?_⟩
      · intro k t ht
        simp only at ht ⊢
        split at ht
        · rename_i h
          rcases h with h | h
          · simp only [List.mem_map] at h
            obtain ⟨x, hx, rfl⟩ := h
            exact ((hn _).1 (List.mem_map.2 ⟨x, hy x hx, rfl⟩)).2.2
          · obtain ⟨u, hu⟩ := Option.isSome_iff_exists.1 h
            exact hT.schema k u hu
        · cases ht
      · intro k t ht
        simp only at ht
        split at ht
        · exact Or.inl ht
        · cases ht
      · intro k h1 h2
        simp only [h2, or_true, if_true]
        simpa [Db.cut] using h1)
    (by
      rintro y ys db ⟨hnd, hy, rfl⟩
      obtain ⟨h1, h2⟩ := List.nodup_cons.1 hnd
      refine ⟨_, rfl, h2, fun z hz => hy z (by simp [hz]), ?_⟩
      have hTy := ((hn (key (nm y))).1 (List.mem_map.2 ⟨y, hy y (by simp), rfl⟩)).2.1
      congr 1
      funext k
      by_cases e : k = key (nm y)
      · subst e
        rw [put_self, if_neg]
        rw [hTy]
        rintro (h | h)
        · exact h1 h
        · cases h
      · rw [put_ne _ _ e]
        simp [e])
    xs { schema := T.schema
         table := fun k => if T.schema k.1 then (S.cut (lacks T)).table k else none }
      ⟨h0, fun _ => id, by
      congr 1
      funext k
      cases e : (S.cut (lacks T)).table k with
      | none => simp
      | some t =>
        have hSk : (S.table k).isSome := by
          obtain ⟨u, hu, _⟩ := dcut_table.1 e
          simp [hu]
        by_cases hk : T.schema k.1 = true
        · have : k ∈ (xs.map fun x => key (nm x)) ∨ (T.table k).isSome := by
            cases e2 : T.table k with
            | none => exact Or.inl ((hn k).2 ⟨hSk, e2, hk⟩)
            | some _ => exact Or.inr rfl
          rw [if_pos hk, if_pos this]
        · rw [if_neg hk, if_neg]
          rintro (h | h)
          · exact hk ((hn k).1 h).2.2
          · obtain ⟨u, hu⟩ := Option.isSome_iff_exists.1 h
            exact hk (hT.schema k u hu)⟩
  obtain ⟨db', h1, _, _, rfl⟩ := hrun
  simpa using h1

/-- The database with another version of one table. -/
def Db.withTable (db : Db) (k : Key) (t : Tbl) : Db := { db with table := put db.table k (some t) }

omit hS hT hc in
theorem withTable_withTable (db : Db) (k : Key) (t u : Tbl) :
    (db.withTable k t).withTable k u = db.withTable k u := by
  unfold Db.withTable
  congr 1
  funext x
  by_cases e : x = k
  · subst e; simp [put_self]
  · simp [put_ne _ _ e]

omit hS hT hc in
/-- Indexes are created one by one. -/
theorem runs_createIndexes {db : Db} {k : Key} {u : Tbl}
    (hdb : ∀ t, Part u t → (db.withTable k t).Consistent) (xs : List Idx) (t : Tbl)
    (hp : Part u t) (h0 : (xs.map fun x => x.name).Nodup)
    (hn : ∀ x ∈ xs, t.idx x.name = none) (hu : ∀ x ∈ xs, u.idx x.name = some (plainIdx x))
    (hx : ∀ x ∈ xs, ∃ nm, x.table = some nm ∧ key nm = k) :
    Runs (db.withTable k t) (xs.map .createIndex)
      (db.withTable k { t with idx := puts (fun x => x.name) t.idx (xs.map plainIdx) }) := by
  induction xs generalizing t with
  | nil => rfl
  | cons x xs ih =>
    obtain ⟨h1, h2⟩ := List.nodup_cons.1 h0
    obtain ⟨nm, h3, h4⟩ := hx x (by simp)
    have hp' : Part u { t with idx := put t.idx x.name (some (plainIdx x)) } := by
      refine ⟨hp.1, hp.2.1, fun n y hy => ?_⟩
      dsimp only at hy
      by_cases e : n = x.name
      · subst e
        rw [put_self] at hy
        rw [← hy]; exact hu x (by simp)
      · rw [put_ne _ _ e] at hy
        exact hp.2.2 n y hy
    refine ⟨db.withTable k { t with idx := put t.idx x.name (some (plainIdx x)) }, ?_, hdb _ hp', ?_⟩
    · have e1 : (db.withTable k t).table k = some t := by
        simp [Db.withTable, put_self]
      simp only [step, h3, Option.bind_some, h4, e1, act, hn x (List.mem_cons_self ..),
        Option.isNone_none, if_true, Option.map_some, Option.some.injEq]
      exact withTable_withTable db k t _
    · have := ih { t with idx := put t.idx x.name (some (plainIdx x)) } hp' h2
        (fun y hy => by
          dsimp only
          rw [put_ne _ _ (fun e => h1 (List.mem_map.2 ⟨y, hy, e⟩))]
          exact hn y (by simp [hy]))
        (fun y hy => hu y (by simp [hy])) (fun y hy => hx y (by simp [hy]))
      dsimp only at this
      rw [List.map_cons, ← puts_cons (fun x => x.name) t.idx (plainIdx x) (xs.map plainIdx)]
      · exact this
      · rw [List.map_map]
        exact h1

/-- Tables are created, each followed by its indexes. -/
theorem phase_createTables {α : Type} (xs : List α) (nm : α → Name) (items : α → List Item)
    (ix : α → List Idx) (h0 : (xs.map fun x => key (nm x)).Nodup)
    (hn : ∀ k, k ∈ (xs.map fun x => key (nm x)) ↔ (T.table k).isSome ∧ S.table k = none)
    (hx : ∀ x ∈ xs, ∀ u, T.table (key (nm x)) = some u →
      acts emptyTbl ((items x).map itemAction) = some
        ⟨u.col, fun n => (u.con n).filter fun c => !isF c, fun _ => none⟩ ∧
      ((ix x).map fun y => y.name).Nodup ∧
      (∀ y ∈ ix x, u.idx y.name = some (plainIdx y) ∧
        ∃ m, y.table = some m ∧ key m = key (nm x)) ∧
      puts (fun y => y.name) (fun _ => none) ((ix x).map plainIdx) = u.idx) :
    Runs
      { schema := T.schema
        table := fun k => if (T.table k).isSome then (S.cut (lacks T)).table k else none }
      (xs.flatMap fun x => .createTable (nm x) (items x) :: (ix x).map .createIndex)
      { schema := T.schema
        table := fun k => if (S.table k).isSome then
            (if (T.table k).isSome then (S.cut (lacks T)).table k else none)
          else (T.cut (lacks S)).table k } := by
  have hT1 := dcut_consistent (p := lacks S) hT
  have hrun := runs_flatMap
    (fun x => Stmt.createTable (nm x) (items x) :: (ix x).map .createIndex)
    (fun ys db => (ys.map fun x => key (nm x)).Nodup ∧ (∀ y ∈ ys, y ∈ xs) ∧
      db = { schema := T.schema
             table := fun k =>
              if (S.table k).isSome then
                (if (T.table k).isSome then (S.cut (lacks T)).table k else none)
              else if k ∈ ys.map (fun x => key (nm x)) then none
              else (T.cut (lacks S)).table k })
    (by
      rintro y ys db ⟨hnd, hy, rfl⟩
      obtain ⟨hnot, hnd'⟩ := List.nodup_cons.1 hnd
      obtain ⟨hTy, hSy⟩ := (hn (key (nm y))).1 (List.mem_map.2 ⟨y, hy y (by simp), rfl⟩)
      obtain ⟨u, hu⟩ := Option.isSome_iff_exists.1 hTy
      obtain ⟨h1, h2, h3, h4⟩ := hx y (hy y (by simp)) u hu
      let t0 : Tbl := ⟨u.col, fun n => (u.con n).filter fun c => !isF c, fun _ => none⟩
      have hp0 : Part u t0 := by
        refine ⟨rfl, fun n c hc => ?_, fun n x hx => by cases hx⟩
        have := Option.filter_eq_some_iff.1 hc
        exact ⟨this.1, by simpa using this.2⟩
      let db : Db := { schema := T.schema
                       table := fun k =>
                        if (S.table k).isSome then
                          (if (T.table k).isSome then (S.cut (lacks T)).table k else none)
                        else if k ∈ (y :: ys).map (fun x => key (nm x)) then none
                        else (T.cut (lacks S)).table k }
      have hcons : ∀ t, Part u t → (db.withTable (key (nm y)) t).Consistent := by
        intro t ht
        refine Between.consistent hS hT hc ⟨?_, ?_, ?_⟩
        · intro k v hv
          by_cases e : k = key (nm y)
          · subst e; exact hT.schema _ u hu
          · simp only [Db.withTable, put_ne _ _ e, db] at hv ⊢
            split at hv
            · split at hv
              · rename_i h5
                obtain ⟨w, hw⟩ := Option.isSome_iff_exists.1 h5
                exact hT.schema k w hw
              · cases hv
            · split at hv
              · cases hv
              · exact hT1.schema k v hv
        · intro k v hv
          by_cases e : k = key (nm y)
          · subst e
            simp only [Db.withTable, put_self, Option.some.injEq] at hv
            subst hv
            exact Or.inr (Or.inr ⟨hSy, u, hu, ht⟩)
          · simp only [Db.withTable, put_ne _ _ e, db] at hv
            split at hv
            · split at hv
              · exact Or.inl hv
              · cases hv
            · split at hv
              · cases hv
              · exact Or.inr (Or.inl hv)
        · intro k h5 h6
          by_cases e : k = key (nm y)
          · subst e
            simp [Db.withTable, put_self]
          · simp only [Db.withTable, put_ne _ _ e, db, h5, h6, if_true]
            simpa [Db.cut] using h5
      have hdb : db.table (key (nm y)) = none := by
        simp [db, hSy]
      have hrun := runs_createIndexes hcons (ix y) t0 hp0 h2 (fun _ _ => rfl)
        (fun x hx => (h3 x hx).1) (fun x hx => (h3 x hx).2)
      refine ⟨_, ⟨db.withTable (key (nm y)) t0, ?_, hcons t0 hp0, hrun⟩, hnd',
        fun z hz => hy z (by simp [hz]), ?_⟩
      · show step db _ = _
        simp only [step, hdb, Option.isSome_none, Bool.false_eq_true, if_false, h1, Option.map_some]
        rfl
      · simp only [Db.withTable, db]
        congr 1
        funext k
        by_cases e : k = key (nm y)
        · subst e
          rw [put_self, hSy, if_neg (by simp), if_neg hnot]
          simp only [Db.cut, hu, Option.map_some, Option.some.injEq]
          have hl : lacks S (key (nm y)) = fun _ => true := by
            funext n; simp [lacks, hSy]
          rw [hl]
          simp only [Tbl.cut, Bool.and_true]
          rw [show t0.idx = fun _ => none from rfl, h4]
        · rw [put_ne _ _ e]
          simp only [List.map_cons, List.mem_cons, e, false_or])
    xs { schema := T.schema
         table := fun k => if (T.table k).isSome then (S.cut (lacks T)).table k else none }
      ⟨h0, fun _ => id, by
      congr 1
      funext k
      cases e1 : S.table k with
      | some s => rfl
      | none =>
        have e3 : (S.cut (lacks T)).table k = none := by simp [Db.cut, e1]
        rw [e3]
        cases e2 : T.table k with
        | none => simp [Db.cut, e2]
        | some t =>
          have := (hn k).2 ⟨by rw [e2]; rfl, e1⟩
          rw [if_neg (c := (none : Option Tbl).isSome = true) (by simp), if_pos this]
          simp⟩
  obtain ⟨db', h1, _, _, rfl⟩ := hrun
  simpa using h1

/-- Tables are altered. -/
theorem phase_alter {α : Type} (xs : List α) (nm : α → Name) (as : α → List Action)
    (h0 : (xs.map fun x => key (nm x)).Nodup)
    (hx : ∀ x ∈ xs, ∃ s t, S.table (key (nm x)) = some s ∧ T.table (key (nm x)) = some t ∧
      acts (s.cut (lacks T (key (nm x)))) (as x) = some (t.cut (lacks S (key (nm x)))))
    (hk : ∀ k s t, S.table k = some s → T.table k = some t → k ∉ xs.map (fun x => key (nm x)) →
      s.cut (lacks T k) = t.cut (lacks S k)) :
    Runs
      { schema := T.schema
        table := fun k => if (S.table k).isSome then
            (if (T.table k).isSome then (S.cut (lacks T)).table k else none)
          else (T.cut (lacks S)).table k }
      (xs.map fun x => .alterTable (nm x) (as x))
      (T.cut (lacks S)) := by
  have hT1 := dcut_consistent (p := lacks S) hT
  have hrun := runs_fold (fun x => Stmt.alterTable (nm x) (as x))
    (fun ys db => (ys.map fun x => key (nm x)).Nodup ∧ (∀ y ∈ ys, y ∈ xs) ∧
      db = { schema := T.schema
             table := fun k => if k ∈ ys.map (fun x => key (nm x)) then (S.cut (lacks T)).table k
              else (T.cut (lacks S)).table k })
    (by
      rintro ys db ⟨_, hy, rfl⟩
      refine Between.consistent hS hT hc ⟨?_, ?_, ?_⟩
      · intro k t ht
        simp only at ht ⊢
        split at ht
        · rename_i h
          simp only [List.mem_map] at h
          obtain ⟨x, hx', rfl⟩ := h
          obtain ⟨s, t, h1, h2, h3⟩ := hx x (hy x hx')
          exact hT.schema _ t h2
        · exact hT1.schema k t ht
      · intro k t ht
        simp only at ht
        split at ht
        · exact Or.inl ht
        · exact Or.inr (Or.inl ht)
      · intro k h1 h2
        dsimp only
        split
        · simpa [Db.cut] using h1
        · simpa [Db.cut] using h2)
    (by
      rintro y ys db ⟨hnd, hy, rfl⟩
      obtain ⟨h1, h2⟩ := List.nodup_cons.1 hnd
      obtain ⟨s, t, h3, h4, h5⟩ := hx y (hy y (by simp))
      refine ⟨{ schema := T.schema
                table := fun k => if k ∈ ys.map (fun x => key (nm x)) then
                  (S.cut (lacks T)).table k else (T.cut (lacks S)).table k }, ?_,
        h2, fun z hz => hy z (by simp [hz]), rfl⟩
      have e1 : (S.cut (lacks T)).table (key (nm y)) = some (s.cut (lacks T (key (nm y)))) :=
        dcut_table.2 ⟨s, h3, rfl⟩
      have e2 : (T.cut (lacks S)).table (key (nm y)) = some (t.cut (lacks S (key (nm y)))) :=
        dcut_table.2 ⟨t, h4, rfl⟩
      simp only [step, List.map_cons, List.mem_cons, true_or, if_true, e1, Option.bind_some, h5,
        Option.map_some, Option.some.injEq]
      congr 1
      funext k
      by_cases e : k = key (nm y)
      · subst e
        rw [put_self, if_neg h1, e2]
      · rw [put_ne _ _ e]
        simp only [e, false_or])
    xs { schema := T.schema
         table := fun k => if (S.table k).isSome then
             (if (T.table k).isSome then (S.cut (lacks T)).table k else none)
           else (T.cut (lacks S)).table k }
      ⟨h0, fun _ => id, by
      congr 1
      funext k
      cases e1 : S.table k with
      | none =>
        rw [if_neg (by simp)]
        by_cases e : k ∈ xs.map fun x => key (nm x)
        · simp only [List.mem_map] at e
          obtain ⟨x, hx', rfl⟩ := e
          obtain ⟨s, t, h1, _⟩ := hx x hx'
          rw [e1] at h1; cases h1
        · rw [if_neg e]
      | some s =>
        rw [if_pos (by simp)]
        cases e2 : T.table k with
        | none =>
          have : (T.cut (lacks S)).table k = none := by simp [Db.cut, e2]
          rw [this, if_neg (by simp), if_neg]
          intro e
          simp only [List.mem_map] at e
          obtain ⟨x, hx', rfl⟩ := e
          obtain ⟨s, t, _, h2, _⟩ := hx x hx'
          rw [e2] at h2; cases h2
        | some t =>
          rw [if_pos (by simp)]
          by_cases e : k ∈ xs.map fun x => key (nm x)
          · rw [if_pos e]
          · rw [if_neg e]
            simp only [Db.cut, e1, e2, Option.map_some]
            rw [hk k s t e1 e2 e]⟩
  obtain ⟨db', h1, _, _, rfl⟩ := hrun
  simp only [List.map_nil, List.not_mem_nil, if_false] at h1
  exact h1

end

end EngineSpec
