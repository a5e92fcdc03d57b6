import Verif.Spec.PgConverge
import Verif.Lemmas.PgEngine

/-!
# The states of a Postgres database between two versions
-/

namespace PgSpec
open SqlSpec Sqddl DdlText PgText EngineSpec
open PgText (Act Stmt)

theorem relation_iff {db : Db} {s n : Str} : Relation db s n ↔ ∃ o, Has db s n o := by
  constructor
  · rintro (h | ⟨a, t, h1, ⟨x, h2⟩ | ⟨c, h2, h3⟩⟩)
    · exact ⟨.table, h⟩
    · exact ⟨.index a, t, x, h1, h2⟩
    · exact ⟨.key a, t, c, h1, h2, h3⟩
  · rintro ⟨o, h⟩
    cases o with
    | table => exact Or.inl h
    | index a => obtain ⟨t, x, h1, h2⟩ := h; exact Or.inr ⟨a, t, h1, Or.inl ⟨x, h2⟩⟩
    | key a => obtain ⟨t, c, h1, h2, h3⟩ := h; exact Or.inr ⟨a, t, h1, Or.inr ⟨c, h2, h3⟩⟩

theorem Runs.to {db a b : Db} {l : List PgText.Stmt} (h : Runs db l a) (e : a = b) : Runs db l b := e ▸ h

/-! ## States on the way -/

/-- A table on the way from `S` to `G`, after the surplus foreign keys are dropped and before the new
ones are added: what it has is in one of the versions, and its foreign keys are in both. -/
structure Fits (S G : Db) (k : Key) (t : Tbl) : Prop where
  table : (S.table k).isSome ∨ (G.table k).isSome
  fk : ∀ n c cs ref, t.con n = some c → c.kind = .foreign cs ref →
    Foreign S k n cs ref ∧ Foreign G k n cs ref
  idx : ∀ n x, t.idx n = some x → Has S k.1 n (.index k.2) ∨ Has G k.1 n (.index k.2)
  key : ∀ n c, t.con n = some c → owns c = true → Has S k.1 n (.key k.2) ∨ Has G k.1 n (.key k.2)

/-- A state on the way from `S` to `G`. -/
def Mid (S G db : Db) : Prop := ∀ k t, db.table k = some t → Fits S G k t

theorem Mid.withTable {S G db : Db} (h : Mid S G db) {k : Key} {t : Tbl} (ht : Fits S G k t) :
    Mid S G (db.withTable k t) := by
  intro k' t' h1
  by_cases e : k' = k
  · subst e
    rw [withTable_self] at h1
    cases h1
    exact ht
  · rw [withTable_other _ e] at h1
    exact h k' t' h1

theorem Mid.has {S G db : Db} (h : Mid S G db) {s n : Str} {o : Obj} (hh : Has db s n o) :
    Has S s n o ∨ Has G s n o := by
  cases o with
  | table =>
    obtain ⟨t, ht⟩ := hh
    rcases (h _ t ht).table with h1 | h1
    · exact Or.inl (Option.isSome_iff_exists.1 h1)
    · exact Or.inr (Option.isSome_iff_exists.1 h1)
  | index a =>
    obtain ⟨t, x, ht, hx⟩ := hh
    exact (h _ t ht).idx n x hx
  | key a =>
    obtain ⟨t, c, ht, hc, hk⟩ := hh
    exact (h _ t ht).key n c hc hk

section
variable {S G db : Db} (hS : Consistent S) (hG : Consistent G) (hp : Passable S G)

include hG hp in
/-- The name of an object of the new version that does not exist yet is free. -/
theorem Mid.free (h : Mid S G db) {s n : Str} {o : Obj} (hg : Has G s n o) (hn : ¬ Has db s n o) :
    ¬ Relation db s n := by
  rw [relation_iff]
  rintro ⟨o', ho⟩
  have : o' = o := by
    rcases h.has ho with h1 | h1
    · exact hp.names s n o' o h1 hg
    · exact hG.names s n o' o h1 hg
  subst this
  exact hn ho

include hG in
/-- What a foreign key of such a state references is in the new version. -/
theorem Mid.target (h : Mid S G db) {k : Key} {t : Tbl} {n : Str} {c : Con} {cs : List Str} {ref : Ref}
    (ht : db.table k = some t) (hc : t.con n = some c) (hk : c.kind = .foreign cs ref) :
    Target G cs ref :=
  hG.fkey k n cs ref ((h k t ht).fk n c cs ref hc hk).2

end

theorem lacks_none {db : Db} {k : Key} (h : db.table k = none) : lacks db k = fun _ => true := by
  funext n; simp [lacks, h]

/-- The foreign keys that both versions have are the same up to the moment when they are checked. -/
def SameFkeys (S G : Db) : Prop :=
  ∀ k s t n c d, S.table k = some s → G.table k = some t → s.con n = some c → t.con n = some d →
    (isF c = true ∨ isF d = true) → c.kind = d.kind

section
variable {S G : Db} (hf : SameFkeys S G)

include hf in
theorem fits_old {k : Key} {s : Tbl} (h : S.table k = some s) : Fits S G k (s.cut (lacks G k)) where
  table := Or.inl (by rw [h]; rfl)
  fk := by
    intro n c cs ref h1 h2
    obtain ⟨h3, h4⟩ := cut_con.1 h1
    rw [(isF_iff c).2 ⟨cs, ref, h2⟩, Bool.true_and] at h4
    obtain ⟨t, d, h5, h6⟩ := lacks_false.1 h4
    exact ⟨⟨s, c, h, h3, h2⟩, t, d, h5, h6,
      by rw [← hf k s t n c d h h5 h3 h6 (Or.inl ((isF_iff c).2 ⟨cs, ref, h2⟩)), h2]⟩
  idx := fun n x hx => Or.inl ⟨s, x, h, hx⟩
  key := fun n c hc ho => Or.inl ⟨s, c, h, (cut_con.1 hc).1, ho⟩

include hf in
theorem fits_new {k : Key} {t : Tbl} (h : G.table k = some t) : Fits S G k (t.cut (lacks S k)) where
  table := Or.inr (by rw [h]; rfl)
  fk := by
    intro n c cs ref h1 h2
    obtain ⟨h3, h4⟩ := cut_con.1 h1
    rw [(isF_iff c).2 ⟨cs, ref, h2⟩, Bool.true_and] at h4
    obtain ⟨s, d, h5, h6⟩ := lacks_false.1 h4
    exact ⟨⟨s, d, h5, h6, by
      rw [hf k s t n d c h5 h h6 h3 (Or.inr ((isF_iff c).2 ⟨cs, ref, h2⟩)), h2]⟩, t, c, h, h3, h2⟩
  idx := fun n x hx => Or.inr ⟨t, x, h, hx⟩
  key := fun n c hc ho => Or.inr ⟨t, c, h, (cut_con.1 hc).1, ho⟩

include hf in
theorem mid_of {db : Db} (h : ∀ k t, db.table k = some t →
    (S.cut (lacks G)).table k = some t ∨ (G.cut (lacks S)).table k = some t) : Mid S G db := by
  intro k t ht
  rcases h k t ht with h1 | h1
  · obtain ⟨s, hs, rfl⟩ := dcut_table.1 h1
    exact fits_old hf hs
  · obtain ⟨s, hs, rfl⟩ := dcut_table.1 h1
    exact fits_new hf hs

end

/-! ## Foreign keys are dropped -/

theorem cut_nothing (db : Db) : db.cut (fun _ _ => false) = db := by
  have : Tbl.cut (fun _ => false) = id := by funext t; simp [Tbl.cut, filter_true]
  simp [Db.cut, this]

/-- Foreign keys are dropped. -/
theorem phase_dropFkeys {S : Db} {α : Type} (nm : α → DdlText.Name) (cn : α → Str) :
    ∀ (xs : List α) (p : Key → Str → Bool),
    (∀ x ∈ xs, ∃ t, S.table (key (nm x)) = some t ∧ ∀ c, t.con (cn x) = some c → isF c = true) →
    Runs (S.cut p) (xs.map fun x => .alter (nm x) [.dropConstraint true (cn x)])
      (S.cut fun k n => p k n || decide ((k, n) ∈ xs.map fun x => (key (nm x), cn x))) := by
  intro xs
  induction xs with
  | nil => intro p _; simp only [List.map_nil, List.not_mem_nil, decide_false, Bool.or_false]; rfl
  | cons x xs ih =>
    intro p h
    obtain ⟨t, ht, hc⟩ := h x List.mem_cons_self
    have h1 : (S.cut p).table (key (nm x)) = some (t.cut (p (key (nm x)))) := dcut_table.2 ⟨t, ht, rfl⟩
    have he : effect (S.cut p) (.alter (nm x) [.dropConstraint true (cn x)]) =
        S.cut fun k n => p k n || decide ((k, n) = (key (nm x), cn x)) := by
      show onTable (S.cut p) (key (nm x)) _ = _
      unfold onTable Db.cut
      congr 1
      funext k
      by_cases e : k = key (nm x)
      · subst e
        rw [put_self]
        simp only [ht, Option.map_some, eff, Tbl.cut]
        congr 2
        funext n
        by_cases e : n = cn x
        · subst e
          rw [put_self]
          cases h2 : t.con (cn x) with
          | none => rfl
          | some c => simp [hc c h2, Option.filter]
        · rw [put_ne _ _ e]
          have : decide ((key (nm x), n) = (key (nm x), cn x)) = false := by simp [e]
          simp only [this, Bool.or_false]
      · rw [put_ne _ _ e]
        have : ∀ n, decide ((k, n) = (key (nm x), cn x)) = false := by intro n; simp [e]
        simp only [this, Bool.or_false]
    have s := ih (fun k n => p k n || decide ((k, n) = (key (nm x), cn x)))
      fun y hy => h y (List.mem_cons_of_mem _ hy)
    refine ⟨⟨⟨_, h1, Or.inl rfl, ?_⟩, ?_⟩, ?_⟩
    · intro c cols h2 h3
      have h4 := hc c (cut_con.1 h2).1
      obtain ⟨a, b, h5⟩ := (isF_iff c).1 h4
      rw [h5] at h3
      rcases h3 with h3 | h3 <;> cases h3
    · show ((onTable (S.cut p) (key (nm x)) _).table (key (nm x))).isSome
      simp [onTable, put_self, h1]
    · show Runs (effect (S.cut p) (.alter (nm x) [.dropConstraint true (cn x)])) _ _
      rw [he]
      have e2 : (fun k n => p k n || decide ((k, n) = (key (nm x), cn x)) ||
            decide ((k, n) ∈ xs.map fun x => (key (nm x), cn x))) =
          fun k n => p k n || decide ((k, n) ∈ (x :: xs).map fun x => (key (nm x), cn x)) := by
        funext k n
        rw [Bool.eq_iff_iff]
        simp only [Bool.or_eq_true, decide_eq_true_eq, List.map_cons, List.mem_cons, or_assoc]
      rw [← e2]
      exact s

/-! ## Schemas and tables are dropped and created -/

section
variable {S G : Db} (hS : Consistent S) (hG : Consistent G) (hf : SameFkeys S G)

include hS hG hf in
/-- Schemas are dropped. -/
theorem phase_dropSchemas (ns : List Str) (h0 : ns.Nodup)
    (hn : ∀ n, n ∈ ns ↔ S.schema n = true ∧ G.schema n = false) :
    Runs (S.cut (lacks G)) (ns.map .dropSchemaCascade)
      { schema := fun s => S.schema s && G.schema s
        table := fun k => if G.schema k.1 then (S.cut (lacks G)).table k else none } := by
  have key : ∀ ys : List Str, ys.Nodup → (∀ y ∈ ys, y ∈ ns) →
      Runs { schema := fun s => S.schema s && (decide (s ∈ ys) || G.schema s)
             table := fun k => if k.1 ∈ ys ∨ G.schema k.1 = true then (S.cut (lacks G)).table k
               else none } (ys.map .dropSchemaCascade)
      { schema := fun s => S.schema s && G.schema s
        table := fun k => if G.schema k.1 then (S.cut (lacks G)).table k else none } := by
    intro ys
    induction ys with
    | nil => intro _ _; simp only [List.map_nil, List.not_mem_nil, false_or, decide_false, Bool.false_or]; rfl
    | cons y ys ih =>
      intro hnd hy
      obtain ⟨h1, h2⟩ := List.nodup_cons.1 hnd
      have hGy := ((hn y).1 (hy y (by simp))).2
      refine ⟨trivial, ?_⟩
      have e : effect { schema := fun s => S.schema s && (decide (s ∈ y :: ys) || G.schema s)
                        table := fun k => if k.1 ∈ y :: ys ∨ G.schema k.1 = true then
                          (S.cut (lacks G)).table k else none } (.dropSchemaCascade y) =
          { schema := fun s => S.schema s && (decide (s ∈ ys) || G.schema s)
            table := fun k => if k.1 ∈ ys ∨ G.schema k.1 = true then (S.cut (lacks G)).table k
               else none } := by
        simp only [effect]
        congr 1
        · funext s
          by_cases e : s = y
          · subst e; simp [put, h1, hGy]
          · simp [put, e]
        · funext k
          by_cases e : k.1 = y
          · rw [if_pos e, e, if_neg]
            rintro (h | h)
            · exact h1 h
            · rw [hGy] at h; cases h
          · rw [if_neg e]
            have e2 : (k.1 ∈ y :: ys ∨ G.schema k.1 = true) ↔ (k.1 ∈ ys ∨ G.schema k.1 = true) := by
              simp [e]
            simp only [e2]
            split
            · cases h3 : (S.cut (lacks G)).table k with
              | none => rfl
              | some t =>
                rw [Option.map_some]
                congr 1
                have : (fun n => (t.con n).filter fun c => !intoSchema y c) = t.con := by
                  funext n
                  cases h4 : t.con n with
                  | none => rfl
                  | some c =>
                    rw [Option.filter_some, if_pos]
                    unfold intoSchema
                    split
                    · rename_i cs ref h5
                      have m : Mid S G (S.cut (lacks G)) := mid_of hf fun _ _ h => Or.inl h
                      obtain ⟨_, r, h6, _⟩ := m.target hG h3 h4 h5
                      have h7 := hG.schema _ r h6
                      simp only [Bool.not_eq_true', beq_eq_false_iff_ne]
                      intro h8
                      rw [h8, hGy] at h7
                      cases h7
                    · rfl
                rw [this]
            · rfl
      show Runs (effect _ (.dropSchemaCascade y)) _ _
      rw [e]
      exact ih h2 fun z hz => hy z (by simp [hz])
  have s := key ns h0 fun _ => id
  have e : S.cut (lacks G) =
      { schema := fun s => S.schema s && (decide (s ∈ ns) || G.schema s)
        table := fun k => if k.1 ∈ ns ∨ G.schema k.1 = true then (S.cut (lacks G)).table k
               else none } := by
    refine Db.ext (funext fun s => ?_) (funext fun k => ?_)
    · show S.schema s = (S.schema s && (decide (s ∈ ns) || G.schema s))
      have := hn s
      cases e1 : S.schema s <;> cases e2 : G.schema s <;> simp_all
    · show (S.cut (lacks G)).table k = if _ then _ else none
      split
      · rfl
      · rename_i h
        cases e : (S.cut (lacks G)).table k with
        | none => rfl
        | some t =>
          obtain ⟨u, hu, _⟩ := dcut_table.1 e
          have h3 := hS.schema k u hu
          have h4 := (hn k.1).2
          rw [h3] at h4
          cases e2 : G.schema k.1 with
          | true => exact absurd (Or.inr e2) h
          | false => exact absurd (Or.inl (h4 ⟨rfl, e2⟩)) h
  rw [← e] at s
  exact s

/-- Schemas are created. -/
theorem phase_createSchemas (ns : List Str) (h0 : ns.Nodup)
    (hn : ∀ n, n ∈ ns ↔ G.schema n = true ∧ S.schema n = false) (tb : Key → Option Tbl) :
    Runs { schema := fun s => S.schema s && G.schema s, table := tb }
      (ns.map fun n => .base (.createSchema n)) { schema := G.schema, table := tb } := by
  have key : ∀ ys : List Str, ys.Nodup → (∀ y ∈ ys, y ∈ ns) →
      Runs { schema := fun s => G.schema s && !decide (s ∈ ys), table := tb }
        (ys.map fun n => .base (.createSchema n)) { schema := G.schema, table := tb } := by
    intro ys
    induction ys with
    | nil => intro _ _; simp only [List.map_nil, List.not_mem_nil, decide_false, Bool.not_false, Bool.and_true]; rfl
    | cons y ys ih =>
      intro hnd hy
      obtain ⟨h1, h2⟩ := List.nodup_cons.1 hnd
      have hGy := ((hn y).1 (hy y (by simp))).1
      refine ⟨trivial, ?_⟩
      have e : effect { schema := fun s => G.schema s && !decide (s ∈ y :: ys), table := tb }
          (.base (.createSchema y)) = { schema := fun s => G.schema s && !decide (s ∈ ys), table := tb } := by
        simp only [effect]
        congr 1
        funext s
        by_cases e : s = y
        · subst e; simp [put, h1, hGy]
        · simp [put, e]
      show Runs (effect _ (.base (.createSchema y))) _ _
      rw [e]
      exact ih h2 fun z hz => hy z (by simp [hz])
  have s := key ns h0 fun _ => id
  have e : (fun s => S.schema s && G.schema s) = fun s => G.schema s && !decide (s ∈ ns) := by
    funext s
    have := hn s
    cases e1 : S.schema s <;> cases e2 : G.schema s <;> simp_all
  rw [e]
  exact s

include hG hf in
/-- Tables are dropped. -/
theorem phase_dropTables {α : Type} (xs : List α) (nm : α → DdlText.Name)
    (h0 : (xs.map fun x => key (nm x)).Nodup)
    (hn : ∀ k, k ∈ (xs.map fun x => key (nm x)) ↔ (S.table k).isSome ∧ G.table k = none ∧
      G.schema k.1 = true) :
    Runs
      { schema := G.schema
        table := fun k => if G.schema k.1 then (S.cut (lacks G)).table k else none }
      (xs.map fun x => .base (.dropTable (nm x)))
      { schema := G.schema
        table := fun k => if (G.table k).isSome then (S.cut (lacks G)).table k else none } := by
  have key : ∀ ys : List α, (ys.map fun x => key (nm x)).Nodup → (∀ y ∈ ys, y ∈ xs) →
      Runs { schema := G.schema
             table := fun k => if k ∈ (ys.map fun x => key (nm x)) ∨ (G.table k).isSome then
               (S.cut (lacks G)).table k else none }
        (ys.map fun x => .base (.dropTable (nm x)))
      { schema := G.schema
        table := fun k => if (G.table k).isSome then (S.cut (lacks G)).table k else none } := by
    intro ys
    induction ys with
    | nil => intro _ _; simp only [List.map_nil, List.not_mem_nil, false_or]; rfl
    | cons y ys ih =>
      intro hnd hy
      obtain ⟨h1, h2⟩ := List.nodup_cons.1 hnd
      have hGy := ((hn (key (nm y))).1 (List.mem_map.2 ⟨y, hy y (by simp), rfl⟩)).2.1
      refine ⟨?_, ?_⟩
      · intro k t m c cs ref ht hc hk hr
        simp only at ht
        split at ht
        · have md : Mid S G (S.cut (lacks G)) := mid_of hf fun _ _ h => Or.inl h
          obtain ⟨_, r, h6, _⟩ := md.target hG ht hc hk
          rw [hr, hGy] at h6
          cases h6
        · cases ht
      · have e : effect { schema := G.schema
                          table := fun k => if k ∈ ((y :: ys).map fun x => key (nm x)) ∨ (G.table k).isSome then
                            (S.cut (lacks G)).table k else none } (.base (.dropTable (nm y))) =
            { schema := G.schema
              table := fun k => if k ∈ (ys.map fun x => key (nm x)) ∨ (G.table k).isSome then
               (S.cut (lacks G)).table k else none } := by
          simp only [effect]
          congr 1
          funext k
          by_cases e : k = key (nm y)
          · subst e
            rw [put_self, if_neg]
            rw [hGy]
            rintro (h | h)
            · exact h1 h
            · cases h
          · rw [put_ne _ _ e]
            simp [e]
        show Runs (effect _ (.base (.dropTable (nm y)))) _ _
        rw [e]
        exact ih h2 fun z hz => hy z (by simp [hz])
  have s := key xs h0 fun _ => id
  have e : (fun k => if G.schema k.1 then (S.cut (lacks G)).table k else none) =
      fun k => if k ∈ (xs.map fun x => EngineSpec.key (nm x)) ∨ (G.table k).isSome then
               (S.cut (lacks G)).table k else none := by
    funext k
    cases e : (S.cut (lacks G)).table k with
    | none => simp
    | some t =>
      have hSk : (S.table k).isSome := by
        obtain ⟨u, hu, _⟩ := dcut_table.1 e
        simp [hu]
      by_cases hk : G.schema k.1 = true
      · have : k ∈ (xs.map fun x => EngineSpec.key (nm x)) ∨ (G.table k).isSome := by
          cases e2 : G.table k with
          | none => exact Or.inl ((hn k).2 ⟨hSk, e2, hk⟩)
          | some _ => exact Or.inr rfl
        rw [if_pos hk, if_pos this]
      · rw [if_neg hk, if_neg]
        rintro (h | h)
        · exact hk ((hn k).1 h).2.2
        · obtain ⟨u, hu⟩ := Option.isSome_iff_exists.1 h
          exact hk (hG.schema k u hu)
  rw [e]
  exact s

end

/-! ## Tables are created -/

theorem okAll_steps {db : Db} {k : Key} {t t' : Tbl} {as : List Act} (h : Steps db k t as t') :
    OkAll (db.withTable k t) k as ∧
      as.foldl (fun db a => onTable db k a) (db.withTable k t) = db.withTable k t' := by
  induction as generalizing t with
  | nil => cases h; exact ⟨by rw [OkAll, withTable_self]; rfl, rfl⟩
  | cons a r ih =>
    obtain ⟨h1, h2⟩ := ih h.2
    refine ⟨⟨⟨t, withTable_self _ _ _, h.1⟩, ?_⟩, ?_⟩
    · rw [onTable_withTable]; exact h1
    · rw [List.foldl_cons, onTable_withTable]; exact h2

theorem steps_addColumns {db : Db} {k : Key} : ∀ (cs : List Col) (t : Tbl),
    (cs.map fun c => c.name).Nodup → (∀ c ∈ cs, t.col c.name = none ∧ addable c = true) →
    Steps db k t (cs.map .addColumn) { t with col := puts (fun c => c.name) t.col cs } := by
  intro cs
  induction cs with
  | nil => intro t _ _; rfl
  | cons c cs ih =>
    intro t h0 h
    obtain ⟨h1, h2⟩ := List.nodup_cons.1 h0
    refine ⟨h c List.mem_cons_self, ?_⟩
    have s := ih { t with col := put t.col c.name (some c) } h2 (by
      intro d hd
      have h3 := h d (List.mem_cons_of_mem _ hd)
      refine ⟨?_, h3.2⟩
      dsimp only
      rw [put_ne _ _ (by intro e; exact h1 (List.mem_map.2 ⟨d, hd, e⟩))]
      exact h3.1)
    rw [← puts_cons (fun c => c.name) t.col c cs h1]
    exact s

theorem notNulls_same {cs : List Str} {f : Str → Option Col}
    (h : ∀ x ∈ cs, ∀ c, f x = some c → c.notNull = true) : notNulls cs f = f := by
  funext n
  unfold notNulls
  split
  · rename_i h1
    cases h2 : f n with
    | none => rfl
    | some c =>
      have := h n (by simpa using h1) c h2
      rw [Option.map_some]
      congr 1
      cases c
      simp_all
  · rfl

/-- The constraint has no effect on the columns. -/
def Settled (c : Con) (f : Str → Option Col) : Prop :=
  ∀ cs, c.kind = .primary cs → ∀ x ∈ cs, ∀ d, f x = some d → d.notNull = true

theorem colsWith_same {c : Con} {f : Str → Option Col} (h : Settled c f) : colsWith c f = f := by
  unfold colsWith
  split
  · rename_i cs hk; exact notNulls_same (h cs hk)
  · rfl

/-- A part of a table of the new version: some of its constraints and indexes, but no foreign keys. -/
structure Piece (u t : Tbl) : Prop where
  con : ∀ n c, t.con n = some c → u.con n = some c ∧ isF c = false
  idx : ∀ n x, t.idx n = some x → u.idx n = some x

theorem Piece.fits {S G : Db} {k : Key} {u t : Tbl} (hu : G.table k = some u) (h : Piece u t) :
    Fits S G k t where
  table := Or.inr (by rw [hu]; rfl)
  fk := by
    intro n c cs ref h1 h2
    have := (h.con n c h1).2
    rw [(isF_iff c).2 ⟨cs, ref, h2⟩] at this
    cases this
  idx := fun n x hx => Or.inr ⟨u, x, hu, h.idx n x hx⟩
  key := fun n c hc ho => Or.inr ⟨u, c, hu, (h.con n c hc).1, ho⟩

theorem owns_notF {c : Con} (h : owns c = true) : isF c = false := by
  unfold owns at h
  unfold isF
  split at h <;> simp_all

section
variable {S G : Db} (hG : Consistent G) (hp : Passable S G) {db : Db} (hm : Mid S G db)
  {k : Key} {u : Tbl} (hu : G.table k = some u)

include hG hp hm hu

/-- Constraints are added to a table of the new version. -/
theorem steps_addConstraints (hs : ∀ n c, u.con n = some c → Settled c u.col) : ∀ (cs : List Con) (t : Tbl),
    Piece u t → (∀ n, (u.col n).isSome → (t.col n).isSome) →
    (∀ n c, t.col n = some c → u.col n = some c) →
    (cs.map fun c => c.name.getD []).Nodup →
    (∀ c ∈ cs, t.con (c.name.getD []) = none ∧ u.con (c.name.getD []) = some c ∧ isF c = false) →
    Steps db k t (cs.map .addConstraint) { t with con := puts (fun c => c.name.getD []) t.con cs } := by
  intro cs
  induction cs with
  | nil => intro t _ _ _ _ _; rfl
  | cons c cs ih =>
    intro t hpc hcol hcol' h0 h
    obtain ⟨h1, h2⟩ := List.nodup_cons.1 h0
    obtain ⟨h3, h4, h5⟩ := h c List.mem_cons_self
    have hn := hG.named k u _ c hu h4
    have hpc' : Piece u { t with con := put t.con (c.name.getD []) (some c) } := by
      refine ⟨fun n d hd => ?_, hpc.idx⟩
      dsimp only at hd
      by_cases e : n = c.name.getD []
      · subst e; rw [put_self] at hd; cases hd; exact ⟨h4, h5⟩
      · rw [put_ne _ _ e] at hd; exact hpc.con n d hd
    refine ⟨⟨⟨_, hn, h3, ?_⟩, ?_, ?_, ?_, ?_⟩, ?_⟩
    · intro ho
      refine (hm.withTable (hpc.fits hu)).free hG hp (o := .key k.2) ⟨u, c, hu, h4, ho⟩ ?_
      rintro ⟨t', d, h6, h7, _⟩
      rw [show ((k.1, k.2) : Key) = k from rfl, withTable_self] at h6
      cases h6
      rw [h3] at h7; cases h7
    · exact fun x hx => hcol x (hG.con k u _ c hu h4 x hx)
    · intro ps hk n d ds hd hd2
      have := hG.primary k u n _ d c ds ps hu (hpc.con n d hd).1 h4 hd2 hk
      subst this
      rw [h3] at hd; cases hd
    · intro ps ref hk
      rw [(isF_iff c).2 ⟨ps, ref, hk⟩] at h5; cases h5
    · exact hG.deferred k u _ c hu h4
    · have s := ih { t with con := put t.con (c.name.getD []) (some c) } hpc' hcol hcol' h2 (by
        intro d hd
        have h6 := h d (List.mem_cons_of_mem _ hd)
        refine ⟨?_, h6.2⟩
        dsimp only
        rw [put_ne _ _ (by intro e; exact h1 (List.mem_map.2 ⟨d, hd, e⟩))]
        exact h6.1)
      have e : eff t (.addConstraint c) = { t with con := put t.con (c.name.getD []) (some c) } := by
        show ({ t with con := put t.con (c.name.getD []) (some c), col := colsWith c t.col } : Tbl) = _
        rw [colsWith_same]
        intro ps hk x hx d hd
        exact hs _ c h4 ps hk x hx d (hcol' x d hd)
      rw [← puts_cons (fun c => c.name.getD []) t.con c cs h1]
      show Steps db k (eff t (.addConstraint c)) _ _
      rw [e]
      exact s

/-- An index of the new version is created. -/
theorem runs_createIndex {t : Tbl} {x : Idx} (hft : Fits S G k t)
    (hx : ∃ nm, x.table = some nm ∧ key nm = k) (hn : t.idx x.name = none)
    (hux : ∃ y, u.idx x.name = some y) (hc : ∀ y ∈ idxNames x ++ x.incl, (t.col y).isSome) :
    Runs (db.withTable k t) [.base (.createIndex x)]
      (db.withTable k { t with idx := put t.idx x.name (some (plainIdx x)) }) := by
  obtain ⟨nm, h1, rfl⟩ := hx
  obtain ⟨y, hy⟩ := hux
  refine ⟨⟨nm, t, h1, withTable_self _ _ _, ?_, hc⟩, ?_⟩
  · refine (hm.withTable hft).free hG hp (o := .index (key nm).2) ⟨u, y, hu, hy⟩ ?_
    rintro ⟨t', d, h6, h7⟩
    rw [show (((key nm).1, (key nm).2) : Key) = key nm from rfl, withTable_self] at h6
    cases h6
    rw [hn] at h7; cases h7
  · show effect _ _ = _
    simp only [effect, h1]
    rw [withTable_self]
    unfold Db.withTable
    rw [Option.map_some, put_put]

/-- Indexes of the new version are created. -/
theorem runs_createIndexes : ∀ (xs : List Idx) (t : Tbl),
    Fits S G k t → (∀ x ∈ xs, ∃ nm, x.table = some nm ∧ key nm = k) →
    (xs.map fun x => x.name).Nodup → (∀ x ∈ xs, t.idx x.name = none) →
    (∀ x ∈ xs, ∃ y, u.idx x.name = some y) →
    (∀ x ∈ xs, ∀ y ∈ idxNames x ++ x.incl, (t.col y).isSome) →
    Runs (db.withTable k t) (xs.map fun x => .base (.createIndex x))
      (db.withTable k { t with idx := puts (fun x => x.name) t.idx (xs.map plainIdx) }) := by
  intro xs
  induction xs with
  | nil => intro t _ _ _ _ _ _; rfl
  | cons x xs ih =>
    intro t hft hx h0 hn hux hc
    obtain ⟨h1, h2⟩ := List.nodup_cons.1 h0
    have r := runs_createIndex hG hp hm hu hft (hx x List.mem_cons_self) (hn x List.mem_cons_self)
      (hux x List.mem_cons_self) (hc x List.mem_cons_self)
    have hft' : Fits S G k { t with idx := put t.idx x.name (some (plainIdx x)) } := by
      refine ⟨hft.table, hft.fk, ?_, hft.key⟩
      intro n y hy
      dsimp only at hy
      by_cases e : n = x.name
      · obtain ⟨z, hz⟩ := hux x List.mem_cons_self
        rw [← e] at hz
        exact Or.inr ⟨u, z, hu, hz⟩
      · rw [put_ne _ _ e] at hy; exact hft.idx n y hy
    have s := ih { t with idx := put t.idx x.name (some (plainIdx x)) } hft'
      (fun y hy => hx y (List.mem_cons_of_mem _ hy)) h2
      (fun y hy => by
        dsimp only
        rw [put_ne _ _ (fun e => h1 (List.mem_map.2 ⟨y, hy, e⟩))]
        exact hn y (List.mem_cons_of_mem _ hy))
      (fun y hy => hux y (List.mem_cons_of_mem _ hy))
      (fun y hy => hc y (List.mem_cons_of_mem _ hy))
    dsimp only at s
    rw [List.map_cons, List.map_cons, ← puts_cons (fun x => x.name) t.idx (plainIdx x) (xs.map plainIdx)]
    · exact runs_append r s
    · rw [List.map_map]
      exact h1

end

section
variable {S G : Db} (hG : Consistent G) (hp : Passable S G) (hf : SameFkeys S G)
include hf

include hG hp in
/-- Tables are created, each followed by its indexes. -/
theorem phase_createTables {α : Type} (xs : List α) (nm : α → DdlText.Name) (cols : α → List Col)
    (cons : α → List Con) (ix : α → List Idx) (h0 : (xs.map fun x => key (nm x)).Nodup)
    (hn : ∀ k, k ∈ (xs.map fun x => key (nm x)) ↔ (G.table k).isSome ∧ S.table k = none)
    (hx : ∀ x ∈ xs, ∀ u, G.table (key (nm x)) = some u →
      ((cols x).map fun c => c.name).Nodup ∧ (∀ c ∈ cols x, addable c = true) ∧
      puts (fun c => c.name) (fun _ => none) (cols x) = u.col ∧
      ((cons x).map fun c => c.name.getD []).Nodup ∧
      (∀ c ∈ cons x, u.con (c.name.getD []) = some c ∧ isF c = false) ∧
      puts (fun c => c.name.getD []) (fun _ => none) (cons x) =
        (fun n => (u.con n).filter fun c => !isF c) ∧
      (∀ n c, u.con n = some c → Settled c u.col) ∧
      ((ix x).map fun y => y.name).Nodup ∧
      (∀ y ∈ ix x, u.idx y.name = some (plainIdx y) ∧
        ∃ m, y.table = some m ∧ key m = key (nm x)) ∧
      puts (fun y => y.name) (fun _ => none) ((ix x).map plainIdx) = u.idx) :
    Runs
      { schema := G.schema
        table := fun k => if (G.table k).isSome then (S.cut (lacks G)).table k else none }
      (xs.flatMap fun x => .base (.createTable (nm x) ((cols x).map .col ++ (cons x).map .con)) ::
        (ix x).map fun y => .base (.createIndex y))
      { schema := G.schema
        table := fun k => if (S.table k).isSome then
            (if (G.table k).isSome then (S.cut (lacks G)).table k else none)
          else (G.cut (lacks S)).table k } := by
  have hrun := PgSpec.runs_flatMap
    (fun x => (.base (.createTable (nm x) ((cols x).map .col ++ (cons x).map .con)) ::
        (ix x).map fun y => .base (.createIndex y) : List PgText.Stmt))
    (fun ys db => (ys.map fun x => key (nm x)).Nodup ∧ (∀ y ∈ ys, y ∈ xs) ∧
      db = { schema := G.schema
             table := fun k =>
              if (S.table k).isSome then
                (if (G.table k).isSome then (S.cut (lacks G)).table k else none)
              else if k ∈ ys.map (fun x => key (nm x)) then none
              else (G.cut (lacks S)).table k })
    (by
      rintro y ys _ ⟨hnd, hy, rfl⟩
      obtain ⟨hnot, hnd'⟩ := List.nodup_cons.1 hnd
      obtain ⟨hGy, hSy⟩ := (hn (key (nm y))).1 (List.mem_map.2 ⟨y, hy y (by simp), rfl⟩)
      obtain ⟨u, hu⟩ := Option.isSome_iff_exists.1 hGy
      obtain ⟨a1, a2, a3, b1, b2, b3, b4, c1, c2, c3⟩ := hx y (hy y (by simp)) u hu
      generalize hdb : ({ schema := G.schema
                          table := fun k =>
                            if (S.table k).isSome then
                              (if (G.table k).isSome then (S.cut (lacks G)).table k else none)
                            else if k ∈ (y :: ys).map (fun x => key (nm x)) then none
                            else (G.cut (lacks S)).table k } : Db) = db
      have hm : Mid S G db := by
        subst hdb
        refine mid_of hf fun k t ht => ?_
        simp only at ht
        split at ht
        · split at ht
          · exact Or.inl ht
          · cases ht
        · split at ht
          · cases ht
          · exact Or.inr ht
      have hsch : db.schema (key (nm y)).1 = true := by
        subst hdb; exact hG.schema _ u hu
      have hnone : db.table (key (nm y)) = none := by
        subst hdb; simp [hSy]
      have s1 := steps_addColumns (db := db) (k := key (nm y)) (cols y) emptyTbl a1
        fun c hc => ⟨rfl, a2 c hc⟩
      rw [show emptyTbl.col = fun _ => none from rfl, a3] at s1
      have s2 := steps_addConstraints hG hp hm hu b4 (cons y) { emptyTbl with col := u.col }
        ⟨(by intro n c h; cases h), (by intro n x h; cases h)⟩ (fun n h => h) (fun n c h => h) b1
        fun c hc => ⟨rfl, b2 c hc⟩
      rw [show ({ emptyTbl with col := u.col } : Tbl).con = fun _ => none from rfl, b3] at s2
      obtain ⟨k1, k2⟩ := okAll_steps (s1.append s2)
      let t0 : Tbl := ⟨u.col, fun n => (u.con n).filter fun c => !isF c, fun _ => none⟩
      have hp0 : Piece u t0 := by
        refine ⟨fun n c hc => ?_, fun n x hx => by cases hx⟩
        have := Option.filter_eq_some_iff.1 hc
        exact ⟨this.1, by simpa using this.2⟩
      have hrun := runs_createIndexes hG hp hm hu (ix y) t0 (hp0.fits hu) (fun x hx => (c2 x hx).2) c1
        (fun _ _ => rfl) (fun x hx => ⟨_, (c2 x hx).1⟩) (by
          intro x hx z hz
          exact hG.idx _ u _ _ hu (c2 x hx).1 z hz)
      rw [show t0.idx = fun _ => none from rfl, c3] at hrun
      have ei : ((cols y).map Item.col ++ (cons y).map Item.con).map itemAct =
          (cols y).map Act.addColumn ++ (cons y).map Act.addConstraint := by
        rw [List.map_append, List.map_map, List.map_map]; rfl
      refine ⟨db.withTable (key (nm y)) { t0 with idx := u.idx }, ⟨⟨hsch, ?_, ?_⟩, ?_⟩, hnd',
        fun z hz => hy z (by simp [hz]), ?_⟩
      · refine hm.free hG hp (o := .table) ⟨u, hu⟩ ?_
        rintro ⟨t, ht⟩
        rw [show (((key (nm y)).1, (key (nm y)).2) : Key) = key (nm y) from rfl, hnone] at ht
        cases ht
      · rw [ei]; exact k1
      · have e : effect db (.base (.createTable (nm y) ((cols y).map .col ++ (cons y).map .con))) =
            db.withTable (key (nm y)) t0 := by
          show (List.map itemAct _).foldl _ (withEmpty db (key (nm y))) = _
          rw [ei]; exact k2
        rw [e]
        exact hrun
      · subst hdb
        simp only [Db.withTable]
        congr 1
        funext k
        by_cases e : k = key (nm y)
        · subst e
          rw [put_self, hSy, if_neg (by simp), if_neg hnot]
          simp only [Db.cut, hu, Option.map_some, Option.some.injEq]
          rw [lacks_none hSy]
          simp only [Tbl.cut, Bool.and_true, t0]
        · rw [put_ne _ _ e]
          simp only [List.map_cons, List.mem_cons, e, false_or])
    xs { schema := G.schema
         table := fun k => if (G.table k).isSome then (S.cut (lacks G)).table k else none }
      ⟨h0, fun _ => id, by
      congr 1
      funext k
      cases e1 : S.table k with
      | some s => rfl
      | none =>
        have e3 : (S.cut (lacks G)).table k = none := by simp [Db.cut, e1]
        rw [e3]
        cases e2 : G.table k with
        | none => simp [Db.cut, e2]
        | some t =>
          have := (hn k).2 ⟨by rw [e2]; rfl, e1⟩
          rw [if_neg (c := (none : Option Tbl).isSome = true) (by simp), if_pos this]
          simp⟩
  obtain ⟨db', h1, _, _, rfl⟩ := hrun
  simpa using h1

/-- Tables are altered. -/
theorem phase_alter {α : Type} (xs : List α) (nm : α → DdlText.Name) (f : α → List PgText.Stmt)
    (h0 : (xs.map fun x => key (nm x)).Nodup)
    (hx : ∀ x ∈ xs, ∃ s t, S.table (key (nm x)) = some s ∧ G.table (key (nm x)) = some t ∧
      ∀ db, Mid S G db → Runs (db.withTable (key (nm x)) (s.cut (lacks G (key (nm x))))) (f x)
        (db.withTable (key (nm x)) (t.cut (lacks S (key (nm x))))))
    (hk : ∀ k s t, S.table k = some s → G.table k = some t → k ∉ xs.map (fun x => key (nm x)) →
      s.cut (lacks G k) = t.cut (lacks S k)) :
    Runs
      { schema := G.schema
        table := fun k => if (S.table k).isSome then
            (if (G.table k).isSome then (S.cut (lacks G)).table k else none)
          else (G.cut (lacks S)).table k }
      (xs.flatMap f) (G.cut (lacks S)) := by
  have hrun := PgSpec.runs_flatMap f
    (fun ys db => (ys.map fun x => key (nm x)).Nodup ∧ (∀ y ∈ ys, y ∈ xs) ∧
      db = { schema := G.schema
             table := fun k => if k ∈ ys.map (fun x => key (nm x)) then (S.cut (lacks G)).table k
              else (G.cut (lacks S)).table k })
    (by
      rintro y ys _ ⟨hnd, hy, rfl⟩
      obtain ⟨h1, h2⟩ := List.nodup_cons.1 hnd
      obtain ⟨s, t, h3, h4, h5⟩ := hx y (hy y (by simp))
      have hm : Mid S G { schema := G.schema
                          table := fun k => if k ∈ (y :: ys).map (fun x => key (nm x)) then
                            (S.cut (lacks G)).table k else (G.cut (lacks S)).table k } := by
        refine mid_of hf fun k t ht => ?_
        simp only at ht
        split at ht
        · exact Or.inl ht
        · exact Or.inr ht
      have r := h5 _ hm
      have e1 : (S.cut (lacks G)).table (key (nm y)) = some (s.cut (lacks G (key (nm y)))) :=
        dcut_table.2 ⟨s, h3, rfl⟩
      have e2 : (G.cut (lacks S)).table (key (nm y)) = some (t.cut (lacks S (key (nm y)))) :=
        dcut_table.2 ⟨t, h4, rfl⟩
      rw [withTable_eq (by simp [e1])] at r
      refine ⟨_, r, h2, fun z hz => hy z (by simp [hz]), ?_⟩
      unfold Db.withTable
      congr 1
      funext k
      by_cases e : k = key (nm y)
      · subst e
        rw [put_self, if_neg h1, e2]
      · rw [put_ne _ _ e]
        simp only [List.map_cons, List.mem_cons, e, false_or])
    xs { schema := G.schema
         table := fun k => if (S.table k).isSome then
             (if (G.table k).isSome then (S.cut (lacks G)).table k else none)
           else (G.cut (lacks S)).table k }
      ⟨h0, fun _ => id, by
      congr 1
      funext k
      cases e1 : S.table k with
      | none =>
        rw [if_neg (by simp)]
        by_cases e : k ∈ xs.map fun x => key (nm x)
        · simp only [List.mem_map] at e
          obtain ⟨x, hx', rfl⟩ := e
          obtain ⟨s, t, h1, _⟩ := hx x hx'
          rw [e1] at h1; cases h1
        · rw [if_neg e]
      | some s =>
        rw [if_pos (by simp)]
        cases e2 : G.table k with
        | none =>
          have : (G.cut (lacks S)).table k = none := by simp [Db.cut, e2]
          rw [this, if_neg (by simp), if_neg]
          intro e
          simp only [List.mem_map] at e
          obtain ⟨x, hx', rfl⟩ := e
          obtain ⟨s, t, _, h2, _⟩ := hx x hx'
          rw [e2] at h2; cases h2
        | some t =>
          rw [if_pos (by simp)]
          by_cases e : k ∈ xs.map fun x => key (nm x)
          · rw [if_pos e]
          · rw [if_neg e]
            simp only [Db.cut, e1, e2, Option.map_some]
            rw [hk k s t e1 e2 e]⟩
  obtain ⟨db', h1, _, _, rfl⟩ := hrun
  simp only [List.map_nil, List.not_mem_nil, if_false] at h1
  exact h1

end

/-! ## Foreign keys are added -/

/-- The database without the foreign keys that `p` excludes, and with those of `q` not valid. -/
def stage (G : Db) (p q : Key → Str → Bool) : Db :=
  { G with table := fun k => (G.table k).map fun t => { t with
      con := fun n => ((t.con n).filter fun c => !(isF c && p k n)).map fun c =>
        if isF c && q k n then { c with notValid := true } else c } }

theorem stage_cut (G : Db) (p : Key → Str → Bool) : stage G p (fun _ _ => false) = G.cut p := by
  unfold stage Db.cut Tbl.cut
  congr 1
  funext k
  congr 1
  funext t
  congr 1
  funext n
  simp

theorem stage_con {G : Db} {p q : Key → Str → Bool} {k : Key} {t : Tbl} (h : G.table k = some t) :
    (stage G p q).table k = some { t with
      con := fun n => ((t.con n).filter fun c => !(isF c && p k n)).map fun c =>
        if isF c && q k n then { c with notValid := true } else c } := by
  simp [stage, h]

theorem stage_target {G : Db} {p q : Key → Str → Bool} {cs : List Str} {ref : Ref}
    (h : Target G cs ref) : Target (stage G p q) cs ref := by
  obtain ⟨h1, r, h2, h3, ks, h4, h5⟩ := h
  refine ⟨h1, _, stage_con h2, h3, ks, h4, ?_⟩
  rcases h5 with ⟨n, c, h6, h7, h8⟩ | h5
  · left
    refine ⟨n, c, ?_, h7, h8⟩
    have : isF c = false := by
      unfold isF
      rcases h7 with h7 | h7 <;> rw [h7]
    simp [h6, this, Option.filter]
  · exact Or.inr h5

/-- The point is the one of the name and the constraint. -/
def at' (k : Key) (n : Str) (k' : Key) (n' : Str) : Bool := decide ((k', n') = (k, n))

/-- A foreign key is added to a database from which it is missing. -/
theorem run_addFkey {G : Db} (hG : Consistent G) {p q : Key → Str → Bool} {nm : DdlText.Name} {t : Tbl} {n : Str}
    {c : Con} (v : Bool) (ht : G.table (key nm) = some t) (hc : t.con n = some c) (hf : isF c = true)
    (hv : c.notValid = false) (hp : p (key nm) n = true) (hq : q (key nm) n = false) :
    Runs (stage G p q) [.alter nm [.addConstraint { c with notValid := v }]]
      (stage G (fun k m => p k m && !at' (key nm) n k m) fun k m => q k m || (v && at' (key nm) n k m)) := by
  obtain ⟨cs, ref, hk⟩ := (isF_iff c).1 hf
  have hn := hG.named _ t n c ht hc
  have h1 := stage_con (p := p) (q := q) ht
  refine ⟨⟨⟨_, h1, ⟨⟨n, hn, ?_, ?_⟩, ?_, ?_, ?_, ?_⟩⟩, ?_⟩, ?_⟩
  · simp [hc, hf, hp, Option.filter]
  · intro ho
    have := owns_notF ho
    unfold isF at this hf
    simp only at this
    rw [this] at hf; cases hf
  · exact hG.con _ t n c ht hc
  · intro ps h2
    simp only at h2
    rw [hk] at h2; cases h2
  · intro cs' ref' h2
    simp only at h2
    exact stage_target (hG.fkey _ n cs' ref' ⟨t, c, ht, hc, h2⟩)
  · exact hG.deferred _ t n c ht hc
  · show ((onTable _ (key nm) _).table (key nm)).isSome
    simp [onTable, put_self, h1]
  · show effect _ _ = _
    show onTable (stage G p q) (key nm) _ = _
    unfold onTable
    rw [h1, Option.map_some]
    unfold stage
    congr 1
    funext k
    by_cases e : k = key nm
    · subst e
      rw [put_self]
      simp only [ht, Option.map_some, eff]
      congr 2
      · simp only [colsWith, hk]
      · funext m
        simp only [hn, Option.getD_some]
        by_cases e : m = n
        · subst e
          rw [put_self, hc]
          cases v with
          | true => simp [at', hf, Option.filter, hn]
          | false =>
            simp only [at', decide_true, Bool.not_true, Bool.and_false, Bool.not_false,
              Option.filter_some, if_true, Option.map_some, hq, Bool.false_or, Bool.false_and,
              Bool.false_eq_true, if_false]
            congr 1
            cases c; simp_all
        · rw [put_ne _ _ e]
          have : at' (key nm) n (key nm) m = false := by simp [at', e]
          simp only [this, Bool.not_false, Bool.and_true, Bool.and_false, Bool.or_false]
    · rw [put_ne _ _ e]
      have : ∀ m, at' (key nm) n k m = false := by intro m; simp [at', e]
      simp only [this, Bool.not_false, Bool.and_true, Bool.and_false, Bool.or_false]

/-- A foreign key is validated. -/
theorem run_validate {G : Db} {p q : Key → Str → Bool} {nm : DdlText.Name} {t : Tbl} {n : Str}
    {c : Con} (ht : G.table (key nm) = some t) (hc : t.con n = some c) (hf : isF c = true)
    (hv : c.notValid = false) (hp : p (key nm) n = false) :
    Runs (stage G p q) [.alter nm [.validate n]]
      (stage G p fun k m => q k m && !at' (key nm) n k m) := by
  obtain ⟨cs, ref, hk⟩ := (isF_iff c).1 hf
  have h1 := stage_con (p := p) (q := q) ht
  refine ⟨⟨⟨_, h1, ⟨if isF c && q (key nm) n then { c with notValid := true } else c, ?_,
    Or.inl ⟨cs, ref, ?_⟩⟩⟩, ?_⟩, ?_⟩
  · simp [hc, hp, Option.filter]
  · split <;> exact hk
  · show ((onTable _ (key nm) _).table (key nm)).isSome
    simp [onTable, put_self, h1]
  · show onTable (stage G p q) (key nm) _ = _
    unfold onTable
    rw [h1, Option.map_some]
    unfold stage
    congr 1
    funext k
    by_cases e : k = key nm
    · subst e
      rw [put_self]
      simp only [ht, Option.map_some, eff]
      congr 2
      funext m
      by_cases e : m = n
      · subst e
        rw [put_self, hc]
        simp only [hf, hp, at', Bool.and_false, Bool.not_false, Option.filter_some, if_true,
          Option.map_some, decide_true, Bool.not_true, Bool.false_eq_true, if_false, Bool.true_and]
        congr 1
        split
        · cases c; simp_all
        · cases c; simp_all
      · rw [put_ne _ _ e]
        have : at' (key nm) n (key nm) m = false := by simp [at', e]
        simp only [this, Bool.not_false, Bool.and_true]
    · rw [put_ne _ _ e]
      have : ∀ m, at' (key nm) n k m = false := by intro m; simp [at', e]
      simp only [this, Bool.not_false, Bool.and_true]

theorem stage_congr {G : Db} {p p' q q' : Key → Str → Bool} (h : ∀ k n, p k n = p' k n)
    (h' : ∀ k n, q k n = q' k n) : stage G p q = stage G p' q' := by
  rw [show p = p' from funext fun k => funext fun n => h k n,
    show q = q' from funext fun k => funext fun n => h' k n]

section
variable {G : Db} (hG : Consistent G) {α : Type} (nm : α → DdlText.Name) (cn : α → Con)

/-- The keys are those of these foreign keys. -/
def keysOf (xs : List α) : List (Key × Str) := xs.map fun x => (key (nm x), (cn x).name.getD [])

/-- The foreign keys are in the database. -/
def InDb (G : Db) (xs : List α) : Prop :=
  ∀ x ∈ xs, isF (cn x) = true ∧ (cn x).notValid = false ∧
    ∃ t, G.table (key (nm x)) = some t ∧ t.con ((cn x).name.getD []) = some (cn x)

include hG in
/-- Foreign keys are added, valid or not. -/
theorem runs_addFkeys (v : Bool) : ∀ (xs : List α) (p q : Key → Str → Bool), InDb nm cn G xs →
    (keysOf nm cn xs).Nodup →
    (∀ y ∈ keysOf nm cn xs, p y.1 y.2 = true ∧ q y.1 y.2 = false) →
    Runs (stage G p q)
      (xs.map fun x => .alter (nm x) [.addConstraint { cn x with notValid := v }])
      (stage G (fun k n => p k n && !decide ((k, n) ∈ keysOf nm cn xs))
        fun k n => q k n || (v && decide ((k, n) ∈ keysOf nm cn xs))) := by
  intro xs
  induction xs with
  | nil =>
    intro p q _ _ _
    show stage G p q = _
    exact stage_congr (by simp [keysOf]) (by simp [keysOf])
  | cons x xs ih =>
    intro p q hx hnd hpq
    obtain ⟨h1, h2⟩ := List.nodup_cons.1 hnd
    obtain ⟨h3, h4, t, h5, h6⟩ := hx x List.mem_cons_self
    obtain ⟨h7, h8⟩ := hpq (key (nm x), (cn x).name.getD []) List.mem_cons_self
    have r := run_addFkey hG v h5 h6 h3 h4 h7 h8
    have s := ih (fun k m => p k m && !at' (key (nm x)) ((cn x).name.getD []) k m)
      (fun k m => q k m || (v && at' (key (nm x)) ((cn x).name.getD []) k m))
      (fun y hy => hx y (List.mem_cons_of_mem _ hy)) h2 (by
        intro y hy
        obtain ⟨h9, h10⟩ := hpq y (List.mem_cons_of_mem _ hy)
        have : at' (key (nm x)) ((cn x).name.getD []) y.1 y.2 = false := by
          simp only [at', decide_eq_false_iff_not]
          intro e
          have e' : y = (key (nm x), (cn x).name.getD []) := e
          rw [e'] at hy
          exact h1 hy
        simp [this, h9, h10])
    refine (runs_append r s).to ?_
    refine stage_congr (fun k n => ?_) fun k n => ?_
    · rw [Bool.eq_iff_iff]
      simp only [at', keysOf, Bool.and_eq_true, Bool.not_eq_true', decide_eq_false_iff_not,
        List.map_cons, List.mem_cons, not_or, and_assoc]
      simp
    · rw [Bool.eq_iff_iff]
      cases v <;> simp [at', keysOf, or_assoc]

/-- Foreign keys are validated. -/
theorem runs_validates : ∀ (xs : List α) (p q : Key → Str → Bool), InDb nm cn G xs →
    (∀ y ∈ keysOf nm cn xs, p y.1 y.2 = false) →
    Runs (stage G p q) (xs.map fun x => .alter (nm x) [.validate ((cn x).name.getD [])])
      (stage G p fun k n => q k n && !decide ((k, n) ∈ keysOf nm cn xs)) := by
  intro xs
  induction xs with
  | nil =>
    intro p q _ _
    show stage G p q = _
    exact stage_congr (by simp [keysOf]) (by simp [keysOf])
  | cons x xs ih =>
    intro p q hx hpq
    obtain ⟨h3, h4, t, h5, h6⟩ := hx x List.mem_cons_self
    have h7 := hpq (key (nm x), (cn x).name.getD []) List.mem_cons_self
    have r := run_validate (q := q) h5 h6 h3 h4 h7
    have s := ih p (fun k m => q k m && !at' (key (nm x)) ((cn x).name.getD []) k m)
      (fun y hy => hx y (List.mem_cons_of_mem _ hy)) fun y hy => hpq y (List.mem_cons_of_mem _ hy)
    refine (runs_append r s).to ?_
    refine stage_congr (fun k n => rfl) fun k n => ?_
    rw [Bool.eq_iff_iff]
    simp only [at', keysOf, Bool.and_eq_true, Bool.not_eq_true', decide_eq_false_iff_not,
      List.map_cons, List.mem_cons, not_or, and_assoc]
    simp

include hG in
/-- Foreign keys are added without looking at the rows, and validated, group by group. -/
theorem runs_groups : ∀ (gs : List (List α)) (p : Key → Str → Bool), InDb nm cn G gs.flatten →
    (keysOf nm cn gs.flatten).Nodup → (∀ y ∈ keysOf nm cn gs.flatten, p y.1 y.2 = true) →
    Runs (G.cut p)
      (gs.flatMap fun g => (g.map fun x => .alter (nm x) [.addConstraint { cn x with notValid := true }]) ++
        g.map fun x => .alter (nm x) [.validate ((cn x).name.getD [])])
      (G.cut fun k n => p k n && !decide ((k, n) ∈ keysOf nm cn gs.flatten)) := by
  intro gs
  induction gs with
  | nil =>
    intro p _ _ _
    show G.cut p = _
    congr 1
    funext k n
    simp [keysOf]
  | cons g gs ih =>
    intro p hx hnd hpq
    have ek : keysOf nm cn (g :: gs).flatten = keysOf nm cn g ++ keysOf nm cn gs.flatten := by
      simp [keysOf]
    rw [ek] at hnd hpq
    obtain ⟨n1, n2, n3⟩ := List.nodup_append.1 hnd
    have xg : InDb nm cn G g := fun x h => hx x (by simp [h])
    have r1 := runs_addFkeys hG nm cn true g p (fun _ _ => false) xg n1
      fun y hy => ⟨hpq y (List.mem_append_left _ hy), rfl⟩
    have r2 := runs_validates nm cn g
      (fun k n => p k n && !decide ((k, n) ∈ keysOf nm cn g))
      (fun k n => false || (true && decide ((k, n) ∈ keysOf nm cn g))) xg
      (by intro y hy; simp [hy])
    have e2 : stage G (fun k n => p k n && !decide ((k, n) ∈ keysOf nm cn g))
        (fun k n => (false || (true && decide ((k, n) ∈ keysOf nm cn g))) &&
          !decide ((k, n) ∈ keysOf nm cn g)) =
        G.cut fun k n => p k n && !decide ((k, n) ∈ keysOf nm cn g) := by
      rw [← stage_cut]
      refine stage_congr (fun _ _ => rfl) fun k n => ?_
      simp
    rw [e2] at r2
    rw [stage_cut] at r1
    have s := ih (fun k n => p k n && !decide ((k, n) ∈ keysOf nm cn g))
      (fun x h => hx x (by rw [List.flatten_cons]; exact List.mem_append_right _ h)) n2 (by
        intro y hy
        have h1 : y ∉ keysOf nm cn g := fun h => n3 y h y hy rfl
        simp [h1, hpq y (List.mem_append_right _ hy)])
    refine (runs_append (runs_append r1 r2) s).to ?_
    congr 1
    funext k n
    rw [ek, Bool.eq_iff_iff]
    simp only [Bool.and_eq_true, Bool.not_eq_true', decide_eq_false_iff_not, List.mem_append, not_or,
      and_assoc]

end

end PgSpec
