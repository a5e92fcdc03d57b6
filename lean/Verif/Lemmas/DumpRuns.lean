import Verif.Lemmas.DumpParts

/-!
# Databases are created part by part on Postgres, SQL Server and MySQL
-/

namespace DumpParts
open SqlSpec Sqddl DdlText EngineSpec

/-- The items of CREATE TABLE. -/
def itemsOf (cols : List Col) (pk : Option (Str × Con)) : List Item :=
  cols.map .col ++ pk.toList.map fun p => .con p.2

theorem find_name {α : Type} (nm : α → Str) {xs : List α} (h : (xs.map nm).Nodup) {x : α} (hx : x ∈ xs) :
    xs.find? (fun y => nm y == nm x) = some x := by
  induction xs with
  | nil => cases hx
  | cons y xs ih =>
    obtain ⟨h1, h2⟩ := List.nodup_cons.1 h
    rcases List.mem_cons.1 hx with rfl | h3
    · rw [List.find?_cons_of_pos (by simp)]
    · rw [List.find?_cons_of_neg, ih h2 h3]
      intro e
      exact h1 (List.mem_map.2 ⟨x, h3, (eq_of_beq e).symm⟩)

/-! ## Postgres -/

/-- The statement of Postgres. -/
def pgStmt : Make → PgText.Stmt
  | .schema n => .base (.createSchema n)
  | .table nm cols pk => .base (.createTable nm (itemsOf cols pk))
  | .con nm _ c => .alter nm [.addConstraint c]
  | .idx _ x => .base (.createIndex x)

/-- What is particular to Postgres: CREATE TABLE has no constraints. -/
def pgMake : Make → Prop
  | .table _ cols pk => pk = none ∧ ∀ c ∈ cols, PgSpec.addable c = true
  | _ => True

theorem pg_has {E : Str → Bool} {G : Db} {ms : List Make} {s n : Str} {o : PgSpec.Obj}
    (h : PgSpec.Has (part E G ms) s n o) : PgSpec.Has G s n o := by
  cases o with
  | table =>
    obtain ⟨t, ht⟩ := h
    obtain ⟨_, u, hu, rfl⟩ := part_table ht
    exact ⟨u, hu⟩
  | index a =>
    obtain ⟨t, x, ht, hx⟩ := h
    obtain ⟨_, u, hu, rfl⟩ := part_table ht
    exact ⟨u, x, hu, (partTbl_idx hx).2⟩
  | key a =>
    obtain ⟨t, c, ht, hc, ho⟩ := h
    obtain ⟨_, u, hu, rfl⟩ := part_table ht
    exact ⟨u, c, hu, (partTbl_con hc).2, ho⟩

theorem pg_free {E : Str → Bool} {G : Db} (hG : PgSpec.Consistent G) {ms : List Make} {s n : Str}
    {o : PgSpec.Obj} (hg : PgSpec.Has G s n o) (hn : ¬ PgSpec.Has (part E G ms) s n o) :
    ¬ PgSpec.Relation (part E G ms) s n := by
  rw [PgSpec.relation_iff]
  rintro ⟨o', h⟩
  have := hG.names s n o' o (pg_has h) hg
  subst this
  exact hn h

theorem pg_step {E : Str → Bool} {G : Db} (hG : PgSpec.Consistent G)
    (hs : ∀ k u n c, G.table k = some u → u.con n = some c → PgSpec.Settled c u.col)
    {m : Make} {r : List Make} (h : Order PgSpec.Target E G (m :: r)) (hm : pgMake m) :
    PgSpec.Accepts (part E G (m :: r)) (pgStmt m) ∧
      PgSpec.effect (part E G (m :: r)) (pgStmt m) = part E G r := by
  obtain ⟨g, ho⟩ := h
  cases m with
  | schema n => exact ⟨trivial, step_schema g⟩
  | table nm cols pk =>
    obtain ⟨rfl, ha⟩ := hm
    obtain ⟨e1, e2⟩ := step_table g
    obtain ⟨h1, h0, u, hu, h2, h3, h4⟩ := g
    have st := PgSpec.steps_addColumns (db := part E G (.table nm cols none :: r)) (k := key nm) cols
      emptyTbl h0 (fun c hc => ⟨rfl, ha c hc⟩)
    obtain ⟨ok, ef⟩ := PgSpec.okAll_steps st
    have ei : (itemsOf cols none).map PgSpec.itemAct = cols.map .addColumn := by
      simp [itemsOf, PgSpec.itemAct]
    refine ⟨⟨?_, ?_, ?_⟩, ?_⟩
    · have := schema_exists hG.schema ho (part_table_of h1 hu)
      exact this
    · refine pg_free hG (o := .table) ⟨u, hu⟩ ?_
      rintro ⟨t, ht⟩
      rw [show (((key nm).1, (key nm).2) : Key) = key nm from rfl, e1] at ht
      cases ht
    · show PgSpec.OkAll _ _ ((itemsOf cols none).map PgSpec.itemAct)
      rw [ei]; exact ok
    · show List.foldl _ _ ((itemsOf cols none).map PgSpec.itemAct) = _
      rw [ei]
      exact ef.trans e2
  | con nm n c =>
    obtain ⟨u, hu, hc, e1, e2, e3⟩ := step_con g
    have hn := hG.named _ u n c hu hc
    have hset := hs _ u n c hu hc
    refine ⟨⟨⟨_, e1, ⟨n, hn, e2, ?_⟩, ?_, ?_, ?_, ?_⟩, ?_⟩, ?_⟩
    · intro hk
      refine pg_free hG (o := .key (key nm).2) ⟨u, c, hu, hc, hk⟩ ?_
      rintro ⟨t, d, ht, hd, _⟩
      rw [show (((key nm).1, (key nm).2) : Key) = key nm from rfl, e1] at ht
      cases ht
      rw [e2] at hd; cases hd
    · exact hG.con _ u n c hu hc
    · intro cs hk n' d ds hd hk'
      have h1 := (partTbl_con hd).2
      have := hG.primary _ u n' n d c ds cs hu h1 hc hk' hk
      subst this
      rw [e2] at hd; cases hd
    · exact g.2.2.elim fun v hv => hv.2.2
    · exact hG.deferred _ u n c hu hc
    · show ((PgSpec.onTable (part E G (.con nm n c :: r)) (key nm) _).table (key nm)).isSome
      simp [PgSpec.onTable, put_self, e1]
    · show PgSpec.onTable (part E G (.con nm n c :: r)) (key nm) (.addConstraint c) = _
      rw [← e3]
      unfold PgSpec.onTable Db.withTable
      rw [e1, Option.map_some]
      congr 2
      show some ({ partTbl (.con nm n c :: r) (key nm) u with
        con := put (partTbl (.con nm n c :: r) (key nm) u).con (c.name.getD []) (some c)
        col := PgSpec.colsWith c u.col } : Tbl) = _
      rw [hn, PgSpec.colsWith_same hset]
      rfl
  | idx nm x =>
    obtain ⟨u, hu, hc, e1, e2, e3⟩ := step_idx g
    have hx := g.2.2.1
    refine ⟨⟨nm, _, hx, e1, ?_, ?_⟩, ?_⟩
    · refine pg_free hG (o := .index (key nm).2) ⟨u, _, hu, hc⟩ ?_
      rintro ⟨t, d, ht, hd⟩
      rw [show (((key nm).1, (key nm).2) : Key) = key nm from rfl, e1] at ht
      cases ht
      rw [e2] at hd; cases hd
    · exact hG.idx _ u _ (plainIdx x) hu hc
    · rw [← e3]
      show (match x.table with
        | none => part E G (.idx nm x :: r)
        | some n => _) = _
      rw [hx]
      dsimp only
      unfold Db.withTable
      rw [e1]
      rfl

/-- Everything is created on Postgres. -/
theorem pg_runs {E : Str → Bool} {G : Db} (hG : PgSpec.Consistent G)
    (hs : ∀ k u n c, G.table k = some u → u.con n = some c → PgSpec.Settled c u.col) :
    ∀ ms : List Make, Order PgSpec.Target E G ms → (∀ m ∈ ms, pgMake m) →
      PgSpec.Runs (part E G ms) (ms.map pgStmt) (part E G []) := by
  intro ms
  induction ms with
  | nil => intro _ _; rfl
  | cons m r ih =>
    intro h hm
    obtain ⟨h1, h2⟩ := pg_step hG hs h (hm m List.mem_cons_self)
    refine ⟨h1, ?_⟩
    show PgSpec.Runs (PgSpec.effect _ (pgStmt m)) _ _
    rw [h2]
    exact ih h.2 fun x hx => hm x (List.mem_cons_of_mem _ hx)

/-! ## SQL Server -/

/-- The statement of SQL Server. -/
def msStmt : Make → MsText.Stmt
  | .schema n => .createSchema n n
  | .table nm cols pk => .base (.createTable nm (itemsOf cols pk))
  | .con nm _ c => .alter nm (.addConstraint c)
  | .idx _ x => .base (.createIndex x)

/-- What is particular to SQL Server: a table has one identity column, and CREATE TABLE has the primary
key. -/
def msMake : Make → Prop
  | .table _ cols pk => (∀ p ∈ pk, ∃ cs, p.2.kind = .primary cs) ∧
    ∀ c ∈ cols, MsSpec.addable c = true ∧
      (c.identity.isSome → ∀ d ∈ cols, d.identity.isSome → d.name = c.name)
  | _ => True

theorem ms_has {E : Str → Bool} {G : Db} {ms : List Make} {s n : Str} {o : MsSpec.Obj}
    (h : MsSpec.Has (part E G ms) s n o) : MsSpec.Has G s n o := by
  cases o with
  | table =>
    obtain ⟨t, ht⟩ := h
    obtain ⟨_, u, hu, rfl⟩ := part_table ht
    exact ⟨u, hu⟩
  | con a =>
    obtain ⟨t, c, ht, hc⟩ := h
    obtain ⟨_, u, hu, rfl⟩ := part_table ht
    exact ⟨u, c, hu, (partTbl_con hc).2⟩

theorem ms_free {E : Str → Bool} {G : Db} (hG : MsSpec.Consistent G) {ms : List Make} {s n : Str}
    {o : MsSpec.Obj} (hg : MsSpec.Has G s n o) (hn : ¬ MsSpec.Has (part E G ms) s n o) :
    ¬ MsSpec.Object (part E G ms) s n := by
  rw [MsSpec.object_iff]
  rintro ⟨o', h⟩
  have := hG.names s n o' o (ms_has h) hg
  subst this
  exact hn h

theorem ms_step {N : MsSpec.Numbers} {E : Str → Bool} {G : Db} (hG : MsSpec.Consistent G)
    (hs : ∀ k u n c, G.table k = some u → u.con n = some c → PgSpec.Settled c u.col)
    (he : ∀ k u n c a b p, G.table k = some u → u.con n = some c → c.kind ≠ .exclude a b p)
    {m : Make} {r : List Make} (h : Order MsSpec.Target E G (m :: r)) (hm : msMake m) :
    MsSpec.Accepts N (part E G (m :: r)) (msStmt m) ∧
      MsSpec.effect (part E G (m :: r)) (msStmt m) = part E G r := by
  obtain ⟨g, ho⟩ := h
  cases m with
  | schema n =>
    have e := step_schema g
    cases hn : (part E G (.schema n :: r)).schema n with
    | true =>
      refine ⟨Or.inl hn, ?_⟩
      rw [← e]
      show (if (part E G (.schema n :: r)).schema n = true then part E G (.schema n :: r) else _) = _
      rw [if_pos hn, PgSpec.put_eq hn]
    | false =>
      refine ⟨Or.inr hn, ?_⟩
      rw [← e]
      show (if (part E G (.schema n :: r)).schema n = true then part E G (.schema n :: r) else _) = _
      rw [hn]; rfl
  | table nm cols pk =>
    obtain ⟨hpk, ha⟩ := hm
    obtain ⟨e1, e2⟩ := step_table g
    obtain ⟨h1, h0, u, hu, h2, h3, h4⟩ := g
    have hcols : ∀ n d, puts (fun c : Col => c.name) (fun _ => none) cols n = some d →
        d ∈ cols ∧ d.name = n := by
      intro n d hd
      unfold puts at hd
      split at hd
      · rename_i x hx
        cases hd
        have := List.find?_some hx
        exact ⟨List.mem_of_find?_eq_some hx, eq_of_beq this⟩
      · cases hd
    have st := MsSpec.steps_addColumns (db := part E G (.table nm cols pk :: r)) (k := key nm)
      (t := emptyTbl) (g := puts (fun c => c.name) (fun _ => none) cols) cols h0 (by
        intro c hc
        refine ⟨rfl, ?_, (ha c hc).1, ?_⟩
        · unfold puts
          rw [find_name (fun c : Col => c.name) h0 hc]
        · intro hi n d hd hne
          rcases hd with hd | hd
          · cases hd
          · obtain ⟨h5, h6⟩ := hcols n d hd
            cases hdi : d.identity with
            | none => rfl
            | some i =>
              exact absurd (h6.symm.trans ((ha c hc).2 hi d h5 (by rw [hdi]; rfl))) hne) (by
        intro n hn
        unfold puts
        rw [List.find?_eq_none.2 (by
          intro x hx e
          exact hn (List.mem_map.2 ⟨x, hx, eq_of_beq e⟩))]
        rfl)
    have st2 : MsSpec.Steps (part E G (.table nm cols pk :: r)) (key nm)
        ⟨puts (fun c => c.name) (fun _ => none) cols, fun _ => none, fun _ => none⟩
        (pk.toList.map fun p => .addConstraint p.2)
        ⟨puts (fun c => c.name) (fun _ => none) cols, onlyCon pk, fun _ => none⟩ := by
      cases pk with
      | none => rfl
      | some p =>
        obtain ⟨n, c⟩ := p
        obtain ⟨cs, hk⟩ := hpk _ rfl
        have huc : u.con n = some c := by
          have := congrFun h3 n
          rw [show onlyCon (some (n, c)) n = some c by simp [onlyCon]] at this
          exact (partTbl_con this).2
        have hn := hG.named _ u n c hu huc
        refine ⟨⟨⟨n, hn, ?_, fun _ => rfl⟩, ?_, ?_, ?_, ?_⟩, ?_⟩
        · rw [MsSpec.object_iff]
          rintro ⟨o, hO⟩
          have hG' : MsSpec.Has G (key nm).1 n o := by
            cases o with
            | table =>
              obtain ⟨t, ht⟩ := hO
              by_cases e : ((key nm).1, n) = key nm
              · exact ⟨u, by rw [e]; exact hu⟩
              · rw [PgSpec.withTable_other _ e] at ht
                exact ms_has (o := .table) ⟨t, ht⟩
            | con a =>
              obtain ⟨t, d, ht, hd⟩ := hO
              by_cases e : ((key nm).1, a) = key nm
              · rw [e, PgSpec.withTable_self] at ht
                cases ht
                cases hd
              · rw [PgSpec.withTable_other _ e] at ht
                exact ms_has (o := .con a) ⟨t, d, ht, hd⟩
          have := hG.names _ n o (.con (key nm).2) hG' ⟨u, c, hu, huc⟩
          subst this
          obtain ⟨t, d, ht, hd⟩ := hO
          rw [show (((key nm).1, (key nm).2) : Key) = key nm from rfl, PgSpec.withTable_self] at ht
          cases ht
          cases hd
        · intro x hx
          have := hG.con _ u n c hu huc x hx
          rw [h2] at this
          exact this
        · intro cs' hk'
          refine ⟨fun n' d ds hd => (by cases hd), fun x hx d hd => ?_⟩
          have : u.col x = some d := by rw [h2]; exact hd
          exact hs _ u n c hu huc cs' hk' x hx d this
        · intro cs' ref hk'
          rw [hk] at hk'; cases hk'
        · exact fun a b p => he _ u n c a b p hu huc
        · show MsSpec.eff _ (.addConstraint c) = _
          show (⟨_, put (fun _ => none) (c.name.getD []) (some c), _⟩ : Tbl) = _
          rw [hn]
          congr 1
    obtain ⟨ok, ef⟩ := MsSpec.okAll_steps (st.append st2)
    have ei : (itemsOf cols pk).map MsSpec.itemAct =
        cols.map .addColumn ++ pk.toList.map fun p => .addConstraint p.2 := by
      rw [itemsOf, List.map_append, List.map_map, List.map_map]; rfl
    refine ⟨⟨?_, ?_, ?_⟩, ?_⟩
    · have := schema_exists hG.schema ho (part_table_of h1 hu)
      exact this
    · refine ms_free hG (o := .table) ⟨u, hu⟩ ?_
      rintro ⟨t, ht⟩
      rw [show (((key nm).1, (key nm).2) : Key) = key nm from rfl, e1] at ht
      cases ht
    · show MsSpec.OkAll _ _ ((itemsOf cols pk).map MsSpec.itemAct)
      rw [ei]; exact ok
    · show List.foldl _ _ ((itemsOf cols pk).map MsSpec.itemAct) = _
      rw [ei]
      exact ef.trans e2
  | con nm n c =>
    obtain ⟨u, hu, hc, e1, e2, e3⟩ := step_con g
    have hn := hG.named _ u n c hu hc
    refine ⟨⟨_, e1, ⟨n, hn, ?_, ?_⟩, ?_, ?_, ?_, ?_⟩, ?_⟩
    · refine ms_free hG (o := .con (key nm).2) ⟨u, c, hu, hc⟩ ?_
      rintro ⟨t, d, ht, hd⟩
      rw [show (((key nm).1, (key nm).2) : Key) = key nm from rfl, e1] at ht
      cases ht
      rw [e2] at hd; cases hd
    · intro hk
      cases hx : (partTbl (.con nm n c :: r) (key nm) u).idx n with
      | none => rfl
      | some x =>
        have := hG.keys _ u n c x hu hc (partTbl_idx hx).2
        rw [hk] at this; cases this
    · exact hG.con _ u n c hu hc
    · intro cs hk
      refine ⟨fun n' d ds hd hk' => ?_, hs _ u n c hu hc cs hk⟩
      have h1 := (partTbl_con hd).2
      have := hG.primary _ u n' n d c ds cs hu h1 hc hk' hk
      subst this
      rw [e2] at hd; cases hd
    · exact g.2.2.elim fun v hv => hv.2.2
    · exact fun a b p => he _ u n c a b p hu hc
    · show MsSpec.onTable (part E G (.con nm n c :: r)) (key nm) (.addConstraint c) = _
      rw [← e3]
      unfold MsSpec.onTable Db.withTable
      rw [e1, Option.map_some]
      congr 2
      show some ({ partTbl (.con nm n c :: r) (key nm) u with
        con := put (partTbl (.con nm n c :: r) (key nm) u).con (c.name.getD []) (some c) } : Tbl) = _
      rw [hn]
      rfl
  | idx nm x =>
    obtain ⟨u, hu, hc, e1, e2, e3⟩ := step_idx g
    have hx := g.2.2.1
    obtain ⟨h5, h6⟩ := hG.idx _ u _ (plainIdx x) hu hc
    refine ⟨⟨nm, _, hx, e1, e2, ?_, h5, h6⟩, ?_⟩
    · intro c hc'
      exact hG.keys _ u _ c _ hu (partTbl_con hc').2 hc
    · rw [← e3]
      show (match x.table with
        | none => part E G (.idx nm x :: r)
        | some n => _) = _
      rw [hx]
      dsimp only
      unfold MsSpec.changeTable Db.withTable
      rw [e1]
      rfl

/-- Everything is created on SQL Server. -/
theorem ms_runs {N : MsSpec.Numbers} {E : Str → Bool} {G : Db} (hG : MsSpec.Consistent G)
    (hs : ∀ k u n c, G.table k = some u → u.con n = some c → PgSpec.Settled c u.col)
    (he : ∀ k u n c a b p, G.table k = some u → u.con n = some c → c.kind ≠ .exclude a b p) :
    ∀ ms : List Make, Order MsSpec.Target E G ms → (∀ m ∈ ms, msMake m) →
      MsSpec.Runs N (part E G ms) (ms.map msStmt) (part E G []) := by
  intro ms
  induction ms with
  | nil => intro _ _; rfl
  | cons m r ih =>
    intro h hm
    obtain ⟨h1, h2⟩ := ms_step (N := N) hG hs he h (hm m List.mem_cons_self)
    refine ⟨h1, ?_⟩
    show MsSpec.Runs N (MsSpec.effect _ (msStmt m)) _ _
    rw [h2]
    exact ih h.2 fun x hx => hm x (List.mem_cons_of_mem _ hx)

/-! ## MySQL -/

/-- The statement of MySQL. -/
def myStmt : Make → DdlText.Stmt
  | .schema n => .createSchema n
  | .table nm cols pk => .createTable nm (itemsOf cols pk)
  | .con nm _ c => .alterTable nm [.addConstraint c]
  | .idx _ x => .createIndex x

/-- What is particular to MySQL: the names of constraints. -/
def myMake : Make → Prop
  | .table _ _ pk => ∀ p ∈ pk, conId p.2 = p.1 ∧ ∀ cs ref, p.2.kind ≠ .foreign cs ref
  | .con _ n c => conId c = n
  | _ => True

/-- Nothing disappears. -/
theorem my_target {E : Str → Bool} {G : Db} {a r : List Make} {cols : List Str} {ref : Ref}
    (h : Db.Target (part E G (a ++ r)) cols ref) : Db.Target (part E G r) cols ref := by
  have key : ∀ p : Make → Bool, (a ++ r).any p = false → r.any p = false := by
    intro p h
    rw [List.any_append, Bool.or_eq_false_iff] at h
    exact h.2
  obtain ⟨h1, t, ht, h2, h3⟩ := h
  obtain ⟨h4, u, hu, rfl⟩ := part_table ht
  refine ⟨h1, partTbl r _ u, part_table_of (key _ h4) hu, h2, ?_⟩
  rcases h3 with ⟨n, c, hc, hk⟩ | ⟨n, x, hx, hk⟩
  · obtain ⟨h5, h6⟩ := partTbl_con hc
    exact Or.inl ⟨n, c, by rw [partTbl_con_of (key _ h5), h6], hk⟩
  · obtain ⟨h5, h6⟩ := partTbl_idx hx
    exact Or.inr ⟨n, x, by rw [partTbl_idx_of (key _ h5), h6], hk⟩

/-- The foreign keys that exist reference keys that exist. -/
def Referring (E : Str → Bool) (G : Db) (ms : List Make) : Prop :=
  ∀ k t n c cols ref, (part E G ms).table k = some t → t.con n = some c → c.kind = .foreign cols ref →
    Db.Target (part E G ms) cols ref

theorem my_consistent {E : Str → Bool} {G : Db} (hG : G.Consistent) {ms : List Make}
    (h : Order Db.Target E G ms) (hr : Referring E G ms) : (part E G ms).Consistent where
  schema := fun k t ht => schema_exists hG.schema h ht
  sound := by
    intro k t ht
    obtain ⟨_, u, hu, rfl⟩ := part_table ht
    have s := hG.sound k u hu
    exact ⟨s.nonempty, fun n c hc => s.con n c (partTbl_con hc).2,
      fun n x hx => s.idx n x (partTbl_idx hx).2,
      fun n c x hc hx => s.names n c x (partTbl_con hc).2 (partTbl_idx hx).2⟩
  fkey := hr
  names := by
    intro s a b t u n c d cols ref cols' ref' ht hu hc hd hk hk'
    obtain ⟨_, t', ht', rfl⟩ := part_table ht
    obtain ⟨_, u', hu', rfl⟩ := part_table hu
    exact hG.names s a b t' u' n c d cols ref cols' ref' ht' hu' (partTbl_con hc).2 (partTbl_con hd).2
      hk hk'

theorem my_referring {E : Str → Bool} {G : Db} {m : Make} {r : List Make}
    (g : Good Db.Target E G m r) (hm : myMake m) (hr : Referring E G (m :: r)) : Referring E G r := by
  intro k t n c cols ref ht hc hk
  refine my_target (a := [m]) ?_
  obtain ⟨h1, u, hu, rfl⟩ := part_table ht
  obtain ⟨h2, h3⟩ := partTbl_con hc
  have go : makesTable k m = false → makesCon k n m = false → Db.Target (part E G (m :: r)) cols ref := by
    intro e1 e2
    refine hr k (partTbl (m :: r) k u) n c cols ref
      (part_table_of (by rw [List.any_cons, e1, h1]; rfl) hu) ?_ hk
    rw [partTbl_con_of (by rw [List.any_cons, e2, h2]; rfl), h3]
  cases m with
  | schema s => exact go rfl rfl
  | idx nm x => exact go rfl rfl
  | table nm cs pk =>
    by_cases e : key nm = k
    · subst e
      exfalso
      obtain ⟨_, _, v, hv, _, h5, _⟩ := g
      rw [hu] at hv; cases hv
      have := congrFun h5 n
      rw [hc] at this
      cases pk with
      | none => cases this
      | some p =>
        unfold onlyCon at this
        dsimp only at this
        split at this
        · cases this
          exact (hm p rfl).2 cols ref hk
        · cases this
    · exact go (by simp [makesTable, e]) rfl
  | con nm m d =>
    by_cases e : key nm = k ∧ m = n
    · obtain ⟨rfl, rfl⟩ := e
      obtain ⟨_, _, v, hv, h5, h6⟩ := g
      rw [hu] at hv; cases hv
      rw [h3] at h5; cases h5
      exact h6 cols ref hk
    · refine go rfl ?_
      unfold makesCon
      dsimp only
      rw [Bool.and_eq_false_iff, beq_eq_false_iff_ne, beq_eq_false_iff_ne]
      by_cases e1 : key nm = k
      · exact Or.inr fun e2 => e ⟨e1, e2⟩
      · exact Or.inl e1

theorem my_step {E : Str → Bool} {G : Db} {m : Make} {r : List Make}
    (g : Good Db.Target E G m r) (hm : myMake m) :
    step (part E G (m :: r)) (myStmt m) = some (part E G r) := by
  cases m with
  | schema n => exact congrArg some (step_schema g)
  | table nm cols pk =>
    obtain ⟨e1, e2⟩ := step_table g
    obtain ⟨h1, h0, u, hu, h2, h3, h4⟩ := g
    have ea : acts emptyTbl ((itemsOf cols pk).map itemAction) =
        some ⟨puts (fun c => c.name) (fun _ => none) cols, onlyCon pk, fun _ => none⟩ := by
      have : (itemsOf cols pk).map itemAction =
          cols.map .addColumn ++ pk.toList.map fun p => .addConstraint p.2 := by
        rw [itemsOf, List.map_append, List.map_map, List.map_map]; rfl
      rw [this, acts, List.foldlM_append]
      have := acts_addColumns cols emptyTbl h0 fun _ _ => rfl
      rw [acts] at this
      rw [this]
      cases pk with
      | none => rfl
      | some p =>
        have hid := (hm p rfl).1
        have e := acts_addConstraints [p.2]
          ⟨puts (fun c => c.name) (fun _ => none) cols, fun _ => none, fun _ => none⟩ (by simp) (fun _ _ => rfl)
        rw [acts] at e
        refine Eq.trans e ?_
        congr 2
        funext n
        simp only [puts, List.find?_cons, List.find?_nil, hid, onlyCon]
        by_cases en : p.1 = n
        · subst en; simp
        · have e2 : ¬ n = p.1 := fun h => en h.symm
          have e3 : (p.1 == n) = false := by rw [beq_eq_false_iff_ne]; exact en
          simp [e2, e3]
    show (if ((part E G (.table nm cols pk :: r)).table (key nm)).isSome then none else _) = _
    rw [e1, if_neg (by simp), ea]
    exact congrArg some e2
  | con nm n c =>
    obtain ⟨u, hu, hc, e1, e2, e3⟩ := step_con g
    have hid : conId c = n := hm
    have hF : acts (partTbl (.con nm n c :: r) (key nm) u) [.addConstraint c] =
        some { partTbl (.con nm n c :: r) (key nm) u with
          con := put (partTbl (.con nm n c :: r) (key nm) u).con n (some c) } := by
      rw [acts_cons _ _ _ _ (show act _ (.addConstraint c) = some _ from by
        show (if ((partTbl (.con nm n c :: r) (key nm) u).con (conId c)).isNone then some _ else none) = _
        rw [hid, e2]; rfl)]
      rfl
    show ((part E G (.con nm n c :: r)).table (key nm)).bind _ = _
    rw [e1, Option.bind_some, hF, ← e3]
    rfl
  | idx nm x =>
    obtain ⟨u, hu, hc, e1, e2, e3⟩ := step_idx g
    have hx := g.2.2.1
    show x.table.bind _ = _
    rw [hx, Option.bind_some, e1, Option.bind_some]
    have ha : act (partTbl (.idx nm x :: r) (key nm) u) (.addIndex x) =
        some { partTbl (.idx nm x :: r) (key nm) u with
          idx := put (partTbl (.idx nm x :: r) (key nm) u).idx x.name (some (plainIdx x)) } := by
      show (if ((partTbl (.idx nm x :: r) (key nm) u).idx x.name).isNone then some _ else none) = _
      rw [e2]; rfl
    rw [ha, ← e3]
    rfl

/-- Everything is created on MySQL. -/
theorem my_runs {E : Str → Bool} {G : Db} (hG : G.Consistent) :
    ∀ ms : List Make, Order Db.Target E G ms → (∀ m ∈ ms, myMake m) → Referring E G ms →
      Runs (part E G ms) (ms.map myStmt) (part E G []) := by
  intro ms
  induction ms with
  | nil => intro _ _ _; rfl
  | cons m r ih =>
    intro h hm hr
    have h1 := my_referring h.1 (hm m List.mem_cons_self) hr
    exact ⟨_, my_step h.1 (hm m List.mem_cons_self), my_consistent hG h.2 h1,
      ih h.2 (fun x hx => hm x (List.mem_cons_of_mem _ hx)) h1⟩

end DumpParts
