import Verif.Lemmas.MsSteps
import Verif.Props.MsPlan

/-!
# The parts of a SQL Server migration, except for the changes of tables
-/

namespace MsSpec
open SqlSpec Sqddl DdlText EngineSpec
open MsText (Act)
open PgSpec (withTable_self withTable_other withTable_eq put_put put_eq)

/-! ## Foreign keys -/

/-- Foreign keys are dropped. -/
theorem phase_dropFkeys {N : Numbers} {S : Db} {α : Type} (nm : α → DdlText.Name) (cn : α → Str) :
    ∀ (xs : List α) (p : Key → Str → Bool), (xs.map fun x => (key (nm x), cn x)).Nodup →
    (∀ x ∈ xs, p (key (nm x)) (cn x) = false ∧ ∃ t c, S.table (key (nm x)) = some t ∧
      t.con (cn x) = some c ∧ isF c = true) →
    Runs N (S.cut p) (xs.map fun x => .alter (nm x) (.dropConstraint (cn x)))
      (S.cut fun k n => p k n || decide ((k, n) ∈ xs.map fun x => (key (nm x), cn x))) := by
  intro xs
  induction xs with
  | nil => intro p _ _; simp only [List.map_nil, List.not_mem_nil, decide_false, Bool.or_false]; rfl
  | cons x xs ih =>
    intro p hnd h
    obtain ⟨hn1, hn2⟩ := List.nodup_cons.1 hnd
    obtain ⟨hpx, t, c, ht, hc, hF⟩ := h x List.mem_cons_self
    have h1 : (S.cut p).table (key (nm x)) = some (t.cut (p (key (nm x)))) := dcut_table.2 ⟨t, ht, rfl⟩
    have he : effect (S.cut p) (.alter (nm x) (.dropConstraint (cn x))) =
        S.cut fun k n => p k n || decide ((k, n) = (key (nm x), cn x)) := by
      show onTable (S.cut p) (key (nm x)) _ = _
      unfold onTable Db.cut
      congr 1
      funext k
      by_cases e : k = key (nm x)
      · subst e
        rw [put_self]
        simp only [ht, Option.map_some, eff, Tbl.cut]
        congr 2
        funext n
        by_cases e : n = cn x
        · subst e
          rw [put_self, hc]
          simp [hF, Option.filter]
        · rw [put_ne _ _ e]
          have : decide ((key (nm x), n) = (key (nm x), cn x)) = false := by simp [e]
          simp only [this, Bool.or_false]
      · rw [put_ne _ _ e]
        have : ∀ n, decide ((k, n) = (key (nm x), cn x)) = false := by intro n; simp [e]
        simp only [this, Bool.or_false]
    have s := ih (fun k n => p k n || decide ((k, n) = (key (nm x), cn x))) hn2 (by
      intro y hy
      obtain ⟨a, b⟩ := h y (List.mem_cons_of_mem _ hy)
      refine ⟨?_, b⟩
      rw [a, Bool.false_or, decide_eq_false_iff_not]
      intro e
      exact hn1 (List.mem_map.2 ⟨y, hy, e⟩))
    refine ⟨⟨_, h1, c, cut_con.2 ⟨hc, by rw [hpx, Bool.and_false]⟩, ?_⟩, ?_⟩
    · intro cols h3
      obtain ⟨a, b, h5⟩ := (isF_iff c).1 hF
      rw [h5] at h3
      rcases h3 with h3 | h3 <;> cases h3
    · show Runs N (effect (S.cut p) (.alter (nm x) (.dropConstraint (cn x)))) _ _
      rw [he]
      have e2 : (fun k n => p k n || decide ((k, n) = (key (nm x), cn x)) ||
            decide ((k, n) ∈ xs.map fun x => (key (nm x), cn x))) =
          fun k n => p k n || decide ((k, n) ∈ (x :: xs).map fun x => (key (nm x), cn x)) := by
        funext k n
        rw [Bool.eq_iff_iff]
        simp only [Bool.or_eq_true, decide_eq_true_eq, List.map_cons, List.mem_cons, or_assoc]
      rw [← e2]
      exact s

theorem targetKey_cut {u : Tbl} {p : Str → Bool} {cols : List Str} (h : TargetKey u cols) :
    TargetKey (u.cut p) cols := by
  rcases h with ⟨n, c, h1, h2⟩ | h
  · refine Or.inl ⟨n, c, cut_con.2 ⟨h1, ?_⟩, h2⟩
    have : isF c = false := by
      unfold isF
      rcases h2 with h2 | h2 <;> rw [h2]
    rw [this, Bool.false_and]
  · exact Or.inr h

theorem target_cut {db : Db} {p : Key → Str → Bool} {cs : List Str} {ref : Ref} (h : Target db cs ref) :
    Target (db.cut p) cs ref := by
  obtain ⟨h1, r, h2, h3, cs', h4, h5⟩ := h
  exact ⟨h1, _, dcut_table.2 ⟨r, h2, rfl⟩, h3, cs', h4, targetKey_cut h5⟩

theorem has_cut {db : Db} {p : Key → Str → Bool} {s n : Str} {o : Obj} (h : Has (db.cut p) s n o) :
    Has db s n o := by
  cases o with
  | table =>
    obtain ⟨t, ht⟩ := h
    obtain ⟨u, hu, _⟩ := dcut_table.1 ht
    exact ⟨u, hu⟩
  | con a =>
    obtain ⟨t, c, ht, hc⟩ := h
    obtain ⟨u, hu, rfl⟩ := dcut_table.1 ht
    exact ⟨u, c, hu, (cut_con.1 hc).1⟩

/-- Foreign keys are added. -/
theorem phase_addFkeys {N : Numbers} {G : Db} (hG : Consistent G) {α : Type} (nm : α → DdlText.Name)
    (cn : α → Str) (c : α → Con) : ∀ (xs : List α) (p : Key → Str → Bool),
    (xs.map fun x => (key (nm x), cn x)).Nodup →
    (∀ x ∈ xs, p (key (nm x)) (cn x) = false ∧ ∃ t, G.table (key (nm x)) = some t ∧
      t.con (cn x) = some (c x) ∧ isF (c x) = true) →
    Runs N (G.cut fun k n => p k n || decide ((k, n) ∈ xs.map fun x => (key (nm x), cn x)))
      (xs.map fun x => .alter (nm x) (.addConstraint (c x))) (G.cut p) := by
  intro xs
  induction xs with
  | nil => intro p _ _; simp only [List.map_nil, List.not_mem_nil, decide_false, Bool.or_false]; rfl
  | cons x xs ih =>
    intro p hnd h
    obtain ⟨hn1, hn2⟩ := List.nodup_cons.1 hnd
    obtain ⟨hpx, t, ht, hc, hF⟩ := h x List.mem_cons_self
    obtain ⟨cs, ref, hk⟩ := (isF_iff (c x)).1 hF
    have hname := hG.named _ t _ (c x) ht hc
    generalize hq : (fun k n => p k n || decide ((k, n) ∈ (x :: xs).map fun x => (key (nm x), cn x))) = q
    have hqx : q (key (nm x)) (cn x) = true := by subst hq; simp
    have h1 : (G.cut q).table (key (nm x)) = some (t.cut (q (key (nm x)))) := dcut_table.2 ⟨t, ht, rfl⟩
    have he : effect (G.cut q) (.alter (nm x) (.addConstraint (c x))) =
        G.cut fun k n => p k n || decide ((k, n) ∈ xs.map fun x => (key (nm x), cn x)) := by
      show onTable (G.cut q) (key (nm x)) _ = _
      unfold onTable
      unfold Db.cut
      congr 1
      funext k
      by_cases e : k = key (nm x)
      · subst e
        rw [put_self]
        simp only [ht, Option.map_some, eff, Tbl.cut, hname, Option.getD_some]
        congr 2
        funext n
        by_cases e : n = cn x
        · subst e
          rw [put_self, hc]
          have : decide ((key (nm x), cn x) ∈ xs.map fun x => (key (nm x), cn x)) = false :=
            decide_eq_false hn1
          simp [hpx, Option.filter] at this ⊢
          exact fun _ y hy h1 h2 => this y hy h1 h2
        · rw [put_ne _ _ e]
          subst hq
          simp [e]
      · rw [put_ne _ _ e]
        subst hq
        simp [e]
    refine ⟨⟨_, h1, ⟨_, hname, ?_, ?_⟩, ?_, ?_, ?_, ?_⟩, ?_⟩
    · rw [object_iff]
      rintro ⟨o, ho⟩
      have : o = .con (key (nm x)).2 := hG.names _ _ _ _ (has_cut ho) ⟨t, c x, ht, hc⟩
      subst this
      obtain ⟨t', d, h2, h3⟩ := ho
      rw [show (((key (nm x)).1, (key (nm x)).2) : Key) = key (nm x) from rfl, h1] at h2
      cases h2
      obtain ⟨h4, h5⟩ := cut_con.1 h3
      rw [hc] at h4; cases h4
      rw [hF, hqx] at h5; cases h5
    · intro hkey
      unfold EngineSpec.isKey at hkey
      rw [hk] at hkey; cases hkey
    · exact fun y hy => hG.con _ t _ (c x) ht hc y hy
    · intro ps hps
      rw [hk] at hps; cases hps
    · intro cs' ref' hk'
      exact target_cut (hG.fkey _ _ _ _ ⟨t, c x, ht, hc, hk'⟩)
    · intro a b p' he
      rw [hk] at he; cases he
    · show Runs N (effect (G.cut q) (.alter (nm x) (.addConstraint (c x)))) _ _
      rw [he]
      exact ih p hn2 fun y hy => h y (List.mem_cons_of_mem _ hy)

/-! ## Schemas and tables are dropped -/

/-- Tables are dropped that no foreign key references. -/
theorem runs_dropTables {N : Numbers} {α : Type} (nm : α → DdlText.Name) : ∀ (xs : List α) (db : Db),
    (xs.map fun x => key (nm x)).Nodup → (∀ x ∈ xs, (db.table (key (nm x))).isSome) →
    (∀ x ∈ xs, ∀ k t m c cs ref, db.table k = some t → t.con m = some c → c.kind = .foreign cs ref →
      key ref.table ≠ key (nm x)) →
    Runs N db (xs.map fun x => .drop .table (nm x))
      { db with table := fun k => if k ∈ xs.map (fun x => key (nm x)) then none else db.table k } := by
  intro xs
  induction xs with
  | nil => intro db _ _ _; simp only [List.map_nil, List.not_mem_nil, if_false]; rfl
  | cons x xs ih =>
    intro db hnd h1 h2
    obtain ⟨hn1, hn2⟩ := List.nodup_cons.1 hnd
    refine ⟨⟨h1 x List.mem_cons_self, fun k t m c cs ref a b d e =>
      absurd e (h2 x List.mem_cons_self k t m c cs ref a b d)⟩, ?_⟩
    show Runs N { db with table := put db.table (key (nm x)) none } _ _
    refine (ih _ hn2 ?_ ?_).to ?_
    · intro y hy
      dsimp only
      rw [put_ne _ _ (fun e => hn1 (List.mem_map.2 ⟨y, hy, e⟩))]
      exact h1 y (List.mem_cons_of_mem _ hy)
    · intro y hy k t m c cs ref a
      dsimp only at a
      by_cases e : k = key (nm x)
      · subst e; rw [put_self] at a; cases a
      · rw [put_ne _ _ e] at a
        exact h2 y (List.mem_cons_of_mem _ hy) k t m c cs ref a
    · congr 1
      funext k
      dsimp only
      by_cases e : k = key (nm x)
      · subst e; rw [put_self]; simp
      · rw [put_ne _ _ e]; simp [e]

theorem runs_noop {N : Numbers} {db : Db} {α : Type} (kd : α → MsText.Kind) (nm : α → DdlText.Name)
    (xs : List α) (h : ∀ x ∈ xs, kd x ≠ .table) :
    Runs N db (xs.map fun x => .drop (kd x) (nm x)) db := by
  induction xs with
  | nil => rfl
  | cons x xs ih =>
    have hx := h x List.mem_cons_self
    refine ⟨?_, ?_⟩
    · show Accepts N db (.drop (kd x) (nm x))
      generalize kd x = y at hx
      cases y <;> first | exact absurd rfl hx | trivial
    · have : effect db (.drop (kd x) (nm x)) = db := by
        generalize kd x = y at hx
        cases y <;> first | exact absurd rfl hx | rfl
      show Runs N (effect db (.drop (kd x) (nm x))) _ _
      rw [this]
      exact ih fun y hy => h y (List.mem_cons_of_mem _ hy)

/-- The states before and after the changes of tables: those foreign keys are missing that are not in
both versions, or that are dropped and added again. -/
structure Way (S G A B : Db) (R : Key → Str → Prop) : Prop where
  schemaA : A.schema = S.schema
  schemaB : B.schema = G.schema
  tableA : ∀ k, (A.table k).isSome = (S.table k).isSome
  tableB : ∀ k, (B.table k).isSome = (G.table k).isSome
  old : Mid S G R A
  new : Mid S G R B

section
variable {N : Numbers} {S G A B : Db} {R : Key → Str → Prop} (hS : Consistent S) (hG : Consistent G)
  (hw : Way S G A B R)

include hS hG hw in
/-- Schemas are dropped. -/
theorem phase_dropSchemas (e : Sqddl.Sqlserver.Env) (ss : List Schema)
    (h0 : (ss.map fun s => s.schemaName).Nodup)
    (hn : ∀ n, n ∈ ss.map (fun s => s.schemaName) ↔ S.schema n = true ∧ G.schema n = false)
    (hk : ∀ s ∈ ss, ∀ n, key (fullName e.cur s.schemaName n) = (s.schemaName, n))
    (ht : ∀ s ∈ ss, (s.tables.map fun t => t.tableName).Nodup ∧
      ∀ n, n ∈ s.tables.map (fun t => t.tableName) ↔ (S.table (s.schemaName, n)).isSome) :
    Runs N A (ss.flatMap (Sqddl.Sqlserver.dropSchemaOf e))
      { schema := fun s => S.schema s && G.schema s
        table := fun k => if G.schema k.1 then A.table k else none } := by
  obtain ⟨db', h1, _, _, h2⟩ := runs_flatMap (N := N) (Sqddl.Sqlserver.dropSchemaOf e)
    (fun ys db => (ys.map fun s => s.schemaName).Nodup ∧ (∀ y ∈ ys, y ∈ ss) ∧
      db = { schema := fun s => S.schema s && (decide (s ∈ ys.map fun s => s.schemaName) || G.schema s)
             table := fun k => if k.1 ∈ ys.map (fun s => s.schemaName) ∨ G.schema k.1 = true then
               A.table k else none })
    (by
      rintro y ys _ ⟨hnd, hy, rfl⟩
      obtain ⟨n1, n2⟩ := List.nodup_cons.1 hnd
      have hys := hy y (by simp)
      obtain ⟨hSy, hGy⟩ := (hn y.schemaName).1 (List.mem_map.2 ⟨y, hys, rfl⟩)
      obtain ⟨t1, t2⟩ := ht y hys
      generalize hdb : ({
        schema := fun s => S.schema s && (decide (s ∈ (y :: ys).map fun s => s.schemaName) || G.schema s)
        table := fun k => if k.1 ∈ (y :: ys).map (fun s => s.schemaName) ∨ G.schema k.1 = true then
               A.table k else none } : Db) = db
      have hkeys : (y.tables.map fun t => key (fullName e.cur y.schemaName t.tableName)) =
          y.tables.map fun t => (y.schemaName, t.tableName) := by
        apply List.map_congr_left
        intro t _
        exact hk y hys _
      have hsub : ∀ k t, db.table k = some t → A.table k = some t := by
        intro k t h
        subst hdb
        simp only at h
        split at h
        · exact h
        · cases h
      have r1 := runs_noop (N := N) (db := db) (fun _ : View => .view)
        (fun v => fullName e.cur y.schemaName v.viewName) y.views (by intro x _ h; cases h)
      have r2 := runs_dropTables (N := N)
        (fun t : Table => fullName e.cur y.schemaName t.tableName) y.tables db (by
          rw [hkeys]
          rw [show (y.tables.map fun t => (y.schemaName, t.tableName)) =
            (y.tables.map fun t => t.tableName).map fun n => (y.schemaName, n) from by rw [List.map_map]; rfl]
          exact List.Pairwise.map _ (fun a b h e => h (by simpa using e)) t1) (by
          intro t htm
          rw [hk y hys]
          subst hdb
          dsimp only
          rw [if_pos (by simp), hw.tableA]
          exact (t2 t.tableName).1 (List.mem_map.2 ⟨t, htm, rfl⟩)) (by
          intro t htm k u m c cs ref a b d he
          rw [hk y hys] at he
          obtain ⟨_, r, h6, _⟩ := hw.old.target hG (hsub k u a) b d
          have h7 := hG.schema _ r h6
          rw [he, hGy] at h7
          cases h7)
      rw [hkeys] at r2
      generalize hdb2 : ({ db with table := fun k =>
        if k ∈ (y.tables.map fun t => (y.schemaName, t.tableName)) then none else db.table k } : Db) = db2 at r2
      have r3 := runs_noop (N := N) (db := db2) Sqddl.Sqlserver.routineKind
        (fun r : Routine => fullName e.cur y.schemaName r.routineName) y.routines (by
          intro x _ h
          unfold Sqddl.Sqlserver.routineKind at h
          split at h <;> cases h)
      have hgone : ∀ k t, db2.table k = some t → k.1 ≠ y.schemaName := by
        intro k t h e1
        subst hdb2
        simp only at h
        split at h
        · cases h
        · rename_i h3
          have h4 := hsub k t h
          have h5 : (S.table k).isSome := by rw [← hw.tableA, h4]; rfl
          have h6 := (t2 k.2).2 (by rw [← e1]; exact h5)
          obtain ⟨t', h7, h8⟩ := List.mem_map.1 h6
          exact h3 (List.mem_map.2 ⟨t', h7, by rw [h8, ← e1]⟩)
      have r4 : Runs N db2 [.dropSchema y.schemaName]
          { db2 with schema := put db2.schema y.schemaName false } := by
        refine runs_one ⟨?_, hgone⟩ rfl
        subst hdb2; subst hdb
        simp [hSy]
      refine ⟨{ db2 with schema := put db2.schema y.schemaName false }, ?_, n2,
        fun z hz => hy z (by simp [hz]), ?_⟩
      · exact runs_append (runs_append (runs_append r1 r2) r3) r4
      · refine Db.ext (funext fun s => ?_) (funext fun k => ?_)
        · subst hdb2; subst hdb
          dsimp only
          by_cases e1 : s = y.schemaName
          · subst e1; rw [put_self]; simp only [hGy, Bool.or_false]
            rw [decide_eq_false n1]; simp
          · rw [put_ne _ _ e1]; simp [e1]
        · show db2.table k = if k.1 ∈ ys.map (fun s => s.schemaName) ∨ G.schema k.1 = true then
            A.table k else none
          cases h : db2.table k with
          | none =>
            subst hdb2; subst hdb
            simp only at h
            split at h
            · rename_i h3
              obtain ⟨t, _, rfl⟩ := List.mem_map.1 h3
              rw [if_neg]
              rintro (h4 | h4)
              · exact n1 h4
              · rw [hGy] at h4; cases h4
            · split at h
              · split
                · exact h.symm
                · rfl
              · rename_i h4
                rw [if_neg]
                intro h5
                exact h4 (h5.elim (fun h => Or.inl (List.mem_cons_of_mem _ h)) Or.inr)
          | some t =>
            have h3 := hgone k t h
            subst hdb2; subst hdb
            simp only at h
            split at h
            · cases h
            · split at h
              · rename_i h4
                rw [if_pos, h]
                exact h4.elim (fun h => Or.inl ((List.mem_cons.1 h).resolve_left h3)) Or.inr
              · cases h)
    ss A ⟨h0, fun _ h => h, by
      refine Db.ext (funext fun s => ?_) (funext fun k => ?_)
      · rw [hw.schemaA]
        dsimp only
        have := hn s
        cases e1 : S.schema s with
        | false => rfl
        | true =>
          cases e2 : G.schema s with
          | true => simp
          | false => rw [decide_eq_true (this.2 ⟨e1, e2⟩)]; rfl
      · dsimp only
        split
        · rfl
        · rename_i h
          cases e1 : A.table k with
          | none => rfl
          | some t =>
            have h5 : (S.table k).isSome := by rw [← hw.tableA, e1]; rfl
            obtain ⟨u, hu⟩ := Option.isSome_iff_exists.1 h5
            have h3 := hS.schema k u hu
            cases e2 : G.schema k.1 with
            | true => exact absurd (Or.inr e2) h
            | false => exact absurd (Or.inl ((hn k.1).2 ⟨h3, e2⟩)) h⟩
  refine h1.to ?_
  rw [h2]
  simp

omit hw in
/-- Schemas are created. -/
theorem phase_createSchemas (ns : List Str) (h0 : ns.Nodup)
    (hn : ∀ n, n ∈ ns ↔ G.schema n = true ∧ S.schema n = false) (tb : Key → Option Tbl) :
    Runs N { schema := fun s => S.schema s && G.schema s, table := tb }
      (ns.map fun n => .createSchema n n) { schema := G.schema, table := tb } := by
  have key : ∀ ys : List Str, ys.Nodup → (∀ y ∈ ys, y ∈ ns) →
      Runs N { schema := fun s => G.schema s && !decide (s ∈ ys), table := tb }
        (ys.map fun n => .createSchema n n) { schema := G.schema, table := tb } := by
    intro ys
    induction ys with
    | nil => intro _ _; simp only [List.map_nil, List.not_mem_nil, decide_false, Bool.not_false, Bool.and_true]; rfl
    | cons y ys ih =>
      intro hnd hy
      obtain ⟨h1, h2⟩ := List.nodup_cons.1 hnd
      have hGy := ((hn y).1 (hy y (by simp))).1
      have hf : (G.schema y && !decide (y ∈ y :: ys)) = false := by simp
      refine ⟨Or.inr hf, ?_⟩
      have e : effect { schema := fun s => G.schema s && !decide (s ∈ y :: ys), table := tb }
          (.createSchema y y) = { schema := fun s => G.schema s && !decide (s ∈ ys), table := tb } := by
        simp only [effect]
        rw [if_neg (by rw [hf]; decide)]
        congr 1
        funext s
        by_cases e : s = y
        · subst e; simp [put, h1, hGy]
        · simp [put, e]
      show Runs N (effect _ (.createSchema y y)) _ _
      rw [e]
      exact ih h2 fun z hz => hy z (by simp [hz])
  have s := key ns h0 fun _ => id
  have e : (fun s => S.schema s && G.schema s) = fun s => G.schema s && !decide (s ∈ ns) := by
    funext s
    have := hn s
    cases e1 : S.schema s <;> cases e2 : G.schema s <;> simp_all
  rw [e]
  exact s

include hG hw in
/-- Tables are dropped. -/
theorem phase_dropTables {α : Type} (xs : List α) (nm : α → DdlText.Name)
    (h0 : (xs.map fun x => key (nm x)).Nodup)
    (hn : ∀ k, k ∈ (xs.map fun x => key (nm x)) ↔ (S.table k).isSome ∧ G.table k = none ∧
      G.schema k.1 = true) :
    Runs N
      { schema := G.schema
        table := fun k => if G.schema k.1 then A.table k else none }
      (xs.map fun x => .drop .table (nm x))
      { schema := G.schema
        table := fun k => if (G.table k).isSome then A.table k else none } := by
  refine (runs_dropTables nm xs _ h0 ?_ ?_).to ?_
  · intro x hx
    obtain ⟨h1, _, h3⟩ := (hn _).1 (List.mem_map.2 ⟨x, hx, rfl⟩)
    dsimp only
    rw [if_pos h3, hw.tableA]; exact h1
  · intro x hx k t m c cs ref ht hc hk hr
    obtain ⟨_, h2, _⟩ := (hn _).1 (List.mem_map.2 ⟨x, hx, rfl⟩)
    simp only at ht
    split at ht
    · obtain ⟨_, r, h6, _⟩ := hw.old.target hG ht hc hk
      rw [hr, h2] at h6
      cases h6
    · cases ht
  · congr 1
    funext k
    dsimp only
    cases e1 : A.table k with
    | none => simp
    | some t =>
      have h5 : (S.table k).isSome := by rw [← hw.tableA, e1]; rfl
      cases e2 : G.table k with
      | some u =>
        have h3 := hG.schema k u e2
        rw [if_neg, if_pos h3]
        · rfl
        intro h
        rw [((hn k).1 h).2.1] at e2; cases e2
      | none =>
        cases e3 : G.schema k.1 with
        | true => rw [if_pos ((hn k).2 ⟨h5, e2, e3⟩)]; rfl
        | false => simp

variable (hp : Between S G)

include hG hp hw in
/-- Tables are created, each followed by its indexes. -/
theorem phase_createTables {α : Type} (xs : List α) (nm : α → DdlText.Name) (cols : α → List Col)
    (cons : α → List Con) (ix : α → List Idx) (h0 : (xs.map fun x => key (nm x)).Nodup)
    (hn : ∀ k, k ∈ (xs.map fun x => key (nm x)) ↔ (G.table k).isSome ∧ S.table k = none)
    (hx : ∀ x ∈ xs, ∀ u, G.table (key (nm x)) = some u →
      (((cols x).map fun c => c.name).Nodup ∧
        (∀ n, n ∉ (cols x).map (fun c => c.name) → u.col n = none) ∧
        ∀ c ∈ cols x, addable c = true ∧ u.col c.name = some c ∧
          (c.identity.isSome → ∀ m d, u.col m = some d → m ≠ c.name → d.identity = none)) ∧
      (((cons x).map fun c => c.name.getD []).Nodup ∧
        (∀ n, n ∉ (cons x).map (fun c => c.name.getD []) → ∀ c, u.con n = some c → isF c = true) ∧
        ∀ c ∈ cons x, u.con (c.name.getD []) = some c ∧ isF c = false ∧
          (∀ a b p, c.kind ≠ .exclude a b p) ∧
          ∀ cs, c.kind = .primary cs → ∀ y ∈ cs, ∀ d, u.col y = some d → d.notNull = true) ∧
      ((ix x).map fun y => y.name).Nodup ∧
      (∀ n, n ∉ (ix x).map (fun y => y.name) → u.idx n = none) ∧
      (∀ y ∈ ix x, u.idx y.name = some (plainIdx y) ∧
        ∃ m, y.table = some m ∧ key m = key (nm x)) ∧
      B.table (key (nm x)) = some { u with con := fun n => (u.con n).filter fun c => !isF c }) :
    Runs N
      { schema := G.schema
        table := fun k => if (G.table k).isSome then A.table k else none }
      (xs.flatMap fun x => .base (.createTable (nm x) ((cols x).map .col ++ (cons x).map .con)) ::
        (ix x).map fun y => .base (.createIndex y))
      { schema := G.schema
        table := fun k => if (S.table k).isSome then
            (if (G.table k).isSome then A.table k else none)
          else B.table k } := by
  have hrun := runs_flatMap (N := N)
    (fun x => (.base (.createTable (nm x) ((cols x).map .col ++ (cons x).map .con)) ::
        (ix x).map fun y => .base (.createIndex y) : List MsText.Stmt))
    (fun ys db => (ys.map fun x => key (nm x)).Nodup ∧ (∀ y ∈ ys, y ∈ xs) ∧
      db = { schema := G.schema
             table := fun k =>
              if (S.table k).isSome then
                (if (G.table k).isSome then A.table k else none)
              else if k ∈ ys.map (fun x => key (nm x)) then none
              else B.table k })
    (by
      rintro y ys _ ⟨hnd, hy, rfl⟩
      obtain ⟨hnot, hnd'⟩ := List.nodup_cons.1 hnd
      obtain ⟨hGy, hSy⟩ := (hn (key (nm y))).1 (List.mem_map.2 ⟨y, hy y (by simp), rfl⟩)
      obtain ⟨u, hu⟩ := Option.isSome_iff_exists.1 hGy
      obtain ⟨⟨a1, a2, a3⟩, ⟨b1, b2, b3⟩, c1, c2, c3, hB⟩ := hx y (hy y (by simp)) u hu
      generalize hdb : ({ schema := G.schema
                          table := fun k =>
                            if (S.table k).isSome then
                              (if (G.table k).isSome then A.table k else none)
                            else if k ∈ (y :: ys).map (fun x => key (nm x)) then none
                            else B.table k } : Db) = db
      have hm : Mid S G R db := by
        subst hdb
        intro k t ht
        simp only at ht
        split at ht
        · split at ht
          · exact hw.old k t ht
          · cases ht
        · split at ht
          · cases ht
          · exact hw.new k t ht
      have hsch : db.schema (key (nm y)).1 = true := by
        subst hdb; exact hG.schema _ u hu
      have hnone : db.table (key (nm y)) = none := by
        subst hdb; simp [hSy]
      -- the table with its columns, with its constraints, and with its indexes
      let t1 : Tbl := { emptyTbl with col := u.col }
      let t2 : Tbl := { t1 with con := fun n => (u.con n).filter fun c => !isF c }
      have hF : Fits S G R (key (nm y)) { u with con := fun n => (u.con n).filter fun c => !isF c } :=
        hw.new _ _ hB
      have f2 : Fits S G R (key (nm y)) t2 :=
        { table := hF.table, fk := hF.fk, con := hF.con, idx := (by intro n x h; cases h), col := hF.col }
      have f1 : Fits S G R (key (nm y)) t1 :=
        { table := hF.table, fk := (by intro n c cs ref h; cases h), con := (by intro n c h; cases h)
          idx := (by intro n x h; cases h), col := hF.col }
      have s1 := steps_addColumns (db := db) (k := key (nm y)) (t := emptyTbl) (g := u.col) (cols y) a1
        (fun c hc => ⟨rfl, (a3 c hc).2.1, (a3 c hc).1, fun hi m d hd hne => (a3 c hc).2.2 hi m d
          (hd.elim (fun h => by cases h) id) hne⟩) (fun n hn => (a2 n hn).symm)
      have s2 := steps_addConstraints hG hp hm hu (t := t1)
        (g := fun n => (u.con n).filter fun c => !isF c) f1 f2 (fun n h => h) (cons y) b1
        (fun c hc => by
          obtain ⟨d1, d2, d3, d4⟩ := b3 c hc
          refine ⟨rfl, ?_, d1, d2, d3, fun cs hk => ⟨?_, d4 cs hk⟩⟩
          · rw [d1, Option.filter_some, d2]; rfl
          · rintro m d ds (h | h) hd
            · cases h
            · exact hG.primary _ u m _ d c ds cs hu (Option.filter_eq_some_iff.1 h).1 d1 hd hk)
        (fun n hn => by
          show none = _
          cases h : u.con n with
          | none => rfl
          | some c => rw [Option.filter_some, b2 n hn c h]; rfl)
      obtain ⟨k1, k2⟩ := okAll_steps (s1.append s2)
      have hrun := runs_createIndexes (N := N) hG hp (db := db) hu (t := t2) (g := u.idx) f2
        (fun n h => h) (ix y) c1
        (fun x hx => ⟨(c3 x hx).2, rfl, (c3 x hx).1, (c3 x hx).1⟩) (fun n hn => (c2 n hn).symm)
      have ei : ((cols y).map Item.col ++ (cons y).map Item.con).map itemAct =
          (cols y).map Act.addColumn ++ (cons y).map Act.addConstraint := by
        rw [List.map_append, List.map_map, List.map_map]; rfl
      have hwe : withEmpty db (key (nm y)) = db.withTable (key (nm y)) emptyTbl := rfl
      refine ⟨db.withTable (key (nm y)) { t2 with idx := u.idx }, ⟨⟨hsch, ?_, ?_⟩, ?_⟩, hnd',
        fun z hz => hy z (by simp [hz]), ?_⟩
      · refine hm.free hG hp (o := .table) ⟨u, hu⟩ ?_
        rintro ⟨t, ht⟩
        rw [show (((key (nm y)).1, (key (nm y)).2) : Key) = key (nm y) from rfl, hnone] at ht
        cases ht
      · rw [ei, hwe]; exact k1
      · have e : effect db (.base (.createTable (nm y) ((cols y).map .col ++ (cons y).map .con))) =
            db.withTable (key (nm y)) t2 := by
          simp only [effect]
          rw [ei, hwe]; exact k2
        show Runs N (effect db (.base (.createTable (nm y) _))) _ _
        rw [e]
        exact hrun
      · refine Db.ext ?_ (funext fun k => ?_)
        · subst hdb; rfl
        · by_cases e : k = key (nm y)
          · subst e
            rw [withTable_self]
            dsimp only
            rw [hSy, if_neg (by simp), if_neg hnot, hB]
          · rw [withTable_other _ e]
            subst hdb
            simp [e])
    xs _ ⟨h0, fun _ h => h, rfl⟩
  obtain ⟨db', h1, _, _, h2⟩ := hrun
  have e : ({ schema := G.schema
              table := fun k => if (G.table k).isSome then A.table k else none } : Db) =
      { schema := G.schema
        table := fun k =>
          if (S.table k).isSome then
            (if (G.table k).isSome then A.table k else none)
          else if k ∈ xs.map (fun x => key (nm x)) then none
          else B.table k } := by
    congr 1
    funext k
    cases e1 : S.table k with
    | some s => rfl
    | none =>
      have : A.table k = none := by
        have := hw.tableA k
        rw [e1] at this
        simpa using this
      rw [this]
      simp only [ite_self, Option.isSome_none, Bool.false_eq_true, if_false]
      split
      · rfl
      · rename_i h
        cases e2 : B.table k with
        | none => rfl
        | some t =>
          exfalso
          apply h
          refine (hn k).2 ⟨?_, e1⟩
          rw [← hw.tableB, e2]; rfl
  rw [e]
  refine h1.to ?_
  rw [h2]
  simp

end

end MsSpec
