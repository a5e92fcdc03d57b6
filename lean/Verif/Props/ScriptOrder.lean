import Verif.Props.ScriptRoutines
import Verif.Spec.ScriptOrder
import Verif.Spec.ScriptRoutines

/-!
# C116: reading the same database again gives the same rows in the same order
-/

namespace Sqddl.Scripts
open OwnSpec OrderSpec RoutineSpec

theorem keyLe_antisymm {le : Str → Str → Prop} {k l : List Str}
    (h : ∀ a ∈ k, ∀ b ∈ l, le a b → le b a → a = b) (h1 : keyLe le k l) (h2 : keyLe le l k) : k = l := by
  induction k generalizing l with
  | nil =>
    cases l with
    | nil => rfl
    | cons b l => exact h2.elim
  | cons a k ih =>
    cases l with
    | nil => exact h1.elim
    | cons b l =>
      have e := h a (List.mem_cons_self ..) b (List.mem_cons_self ..) h1.1 h2.1
      rw [e, ih (fun x hx y hy => h x (List.mem_cons_of_mem _ hx) y (List.mem_cons_of_mem _ hy))
        (h1.2 h2.1) (h2.2 h1.1)]

/-- Rows that differ in what they are sorted by come in one order only, however they are stored. -/
theorem answers_unique {R : Type} {le : Str → Str → Prop} {key : R → List Str} {rows rows' ans ans' : List R}
    (hp : rows.Perm rows') (hn : (rows.map key).Nodup) (ha : Apart le key rows) (h : Answers le key rows ans)
    (h' : Answers le key rows' ans') : ans = ans' := by
  have hp' : ans.Perm ans' := (h.1.trans hp).trans h'.1.symm
  refine List.Perm.eq_of_pairwise (le := fun a b => keyLe le (key a) (key b)) ?_ h.2 h'.2 hp'
  intro a b h1 h2 e1 e2
  have m1 := h.1.mem_iff.mp h1
  have m2 := h.1.mem_iff.mp (hp'.mem_iff.mpr h2)
  exact map_nodup_inj hn m1 m2 (keyLe_antisymm (ha a m1 b m2) e1 e2)

/-! ## Tables -/

/-- C116: the tables of MySQL come in the same order, however they are stored. -/
theorem mysql_tables_again {le : Str → Str → Prop} {f : Filter} {c d : MyTables} (hs : SameMy c d)
    (hn : (c.tables.map fun t => (t.1, t.2.1)).Nodup) (ha : Apart le tableOrder (myTables f c))
    {x y : List (Str × Str × Str)} (hx : Answers le tableOrder (myTables f c) x)
    (hy : Answers le tableOrder (myTables f d) y) : x = y := by
  have e : ∀ e : MyTables, myTables f e = (e.tables.filter fun t =>
      t.2.2.1 == b!"BASE TABLE" && myShown f t.1 && passes f.tables f.excludeTables t.2.1).map
        fun t => (t.1, t.2.1, t.2.2.2) := by
    intro e
    unfold myTables
    rw [← List.filterMap_eq_map, List.filterMap_filter]
    congr 1
  refine answers_unique ?_ ?_ ha hx hy
  · exact hs.tables.filterMap _
  · rw [e, List.map_map]
    refine map_nodup_of ((nodup_of_map hn).filter _) ?_
    intro i hi j hj h
    refine map_nodup_inj hn (List.mem_filter.mp hi).1 (List.mem_filter.mp hj).1 ?_
    simp only [Function.comp_apply, tableOrder, List.cons.injEq, and_true] at h
    simp only [h.1, h.2]

/-- C116: the tables of SQL Server come in the same order, however they are stored. -/
theorem sqlserver_tables_again {le : Str → Str → Prop} {fold : Char → Char} {f : Filter} {c d : List MsObject}
    (hs : c.Perm d) (hn : (c.map fun o => (o.schema, o.name)).Nodup) (ha : Apart le msTableOrder (msTables fold f c))
    {x y : List (Str × Str)} (hx : Answers le msTableOrder (msTables fold f c) x)
    (hy : Answers le msTableOrder (msTables fold f d) y) : x = y := by
  refine answers_unique ((hs.filter _).map _) ?_ ha hx hy
  rw [List.map_map]
  refine map_nodup_of ((nodup_of_map hn).filter _) ?_
  intro i hi j hj h
  refine map_nodup_inj hn (List.mem_filter.mp hi).1 (List.mem_filter.mp hj).1 ?_
  simp only [Function.comp_apply, msTableOrder, List.cons.injEq, and_true] at h
  simp only [h.1, h.2]

/-- C116: the tables of SQLite come in the same order, however they are stored. -/
theorem sqlite_tables_again {le : Str → Str → Prop} {old : Bool} {f : Filter} {c d : LiteTables} (hs : SameLite c d)
    (hn : ((c.rows.filter fun m => m.type == b!"table").map (·.tblName)).Nodup)
    (ha : Apart le liteTableOrder (liteTables old f c)) {x y : List Str}
    (hx : Answers le liteTableOrder (liteTables old f c) x) (hy : Answers le liteTableOrder (liteTables old f d) y) :
    x = y := by
  refine answers_unique ?_ ?_ ha hx hy
  · unfold liteTables
    have e : ∀ m : LiteRow, (c.tableList.any fun t => (t.2.2 == b!"table" || t.2.2 == b!"virtual") && t.1 == b!"main" &&
        t.2.1 == m.tblName) = d.tableList.any fun t => (t.2.2 == b!"table" || t.2.2 == b!"virtual") && t.1 == b!"main" &&
        t.2.1 == m.tblName := fun m => hs.tableList.any_eq
    simp only [e]
    exact (hs.rows.filter _).map _
  · have key : ∀ p : LiteRow → Bool, (∀ m, p m = true → (m.type == b!"table") = true) →
        ((c.rows.filter p).map (·.tblName)).Nodup := by
      intro p hp
      have e : c.rows.filter p = (c.rows.filter fun m => m.type == b!"table").filter p := by
        rw [List.filter_filter]
        refine List.filter_congr fun m _ => ?_
        cases h : p m with
        | false => simp
        | true => simp [hp m h]
      rw [e]
      exact hn.sublist (List.filter_sublist.map _)
    refine map_nodup_of (key _ fun m h => ?_) fun i _ j _ h => ?_
    · simp only [Bool.and_eq_true] at h
      exact h.1.1
    · simpa [liteTableOrder] using h

/-! ## Triggers -/

/-- C116: the triggers of MySQL come in the same order, however they are stored. -/
theorem mysql_triggers_again {le : Str → Str → Prop} {f : Filter} {c d : List MyTriggerRow} (hs : c.Perm d)
    (hn : (c.map fun g => (g.schema, g.name)).Nodup) (ha : Apart le triggerOrder (myTriggers f c))
    {x y : List Trigger} (hx : Answers le triggerOrder (myTriggers f c) x)
    (hy : Answers le triggerOrder (myTriggers f d) y) : x = y := by
  refine answers_unique ((hs.filter _).map _) ?_ ha hx hy
  rw [List.map_map]
  refine map_nodup_of ((nodup_of_map hn).filter _) ?_
  intro i hi j hj h
  refine map_nodup_inj hn (List.mem_filter.mp hi).1 (List.mem_filter.mp hj).1 ?_
  simp only [Function.comp_apply, triggerOrder, List.cons.injEq, and_true] at h
  simp only [h.1, h.2.2]

/-- C116: the triggers of SQLite come in the same order, however they are stored. -/
theorem sqlite_triggers_again {le : Str → Str → Prop} {f : Filter} {c d : List LiteObject} (hs : c.Perm d)
    (hn : (c.map fun m => (m.type, m.name)).Nodup) (ha : Apart le triggerOrder (liteTriggers f c))
    {x y : List Trigger} (hx : Answers le triggerOrder (liteTriggers f c) x)
    (hy : Answers le triggerOrder (liteTriggers f d) y) : x = y := by
  refine answers_unique ((hs.filter _).map _) ?_ ha hx hy
  rw [List.map_map]
  refine map_nodup_of ((nodup_of_map hn).filter _) ?_
  intro i hi j hj h
  obtain ⟨h1, h2⟩ := List.mem_filter.mp hi
  obtain ⟨k1, k2⟩ := List.mem_filter.mp hj
  refine map_nodup_inj hn h1 k1 ?_
  simp only [Bool.and_eq_true, beq_iff_eq] at h2 k2
  simp only [Function.comp_apply, triggerOrder, List.cons.injEq, and_true] at h
  simp only [h2.1.1, k2.1.1, h.2.2]

/-! ## Extensions and routines of Postgres -/

/-- C116: the extensions of Postgres come in the same order, however they are stored. -/
theorem pg_extensions_again {le : Str → Str → Prop} {incl excl : List Str} {c d : PgRoutines} (hs : SameRoutines c d)
    (hn : (c.extensions.map (·.name)).Nodup) (ha : Apart le extensionOrder (pgExtensions incl excl c))
    {x y : List Str} (hx : Answers le extensionOrder (pgExtensions incl excl c) x)
    (hy : Answers le extensionOrder (pgExtensions incl excl d) y) : x = y := by
  refine answers_unique ((hs.extensions.filter _).map _) ?_ ha hx hy
  rw [List.map_map]
  refine map_nodup_of ((nodup_of_map hn).filter _) ?_
  intro i hi j hj h
  refine map_nodup_inj hn (List.mem_filter.mp hi).1 (List.mem_filter.mp hj).1 ?_
  simpa [extensionOrder] using h

theorem leftJoin_perm {A : Type} {l m : List A} (h : l.Perm m) (p : A → Bool) : (leftJoin l p).Perm (leftJoin m p) := by
  unfold leftJoin
  have hp := h.filter p
  by_cases e : l.filter p = []
  · rw [if_pos e, if_pos (by rw [e] at hp; exact hp.nil_eq.symm)]
  · rw [if_neg e, if_neg (fun e' => e (by rw [e'] at hp; exact hp.eq_nil))]
    exact hp.map _

theorem pgOfExtension_same {c d : PgRoutines} (hs : SameRoutines c d) (p : PgProc) : pgOfExtension c p = pgOfExtension d p := by
  unfold pgOfExtension
  rw [hs.extensions.any_eq]
  congr 1
  funext e
  exact hs.depends.any_eq

theorem pgRoutineShown_same {c d : PgRoutines} (hs : SameRoutines c d) (f : Filter) (n : PgNamespace) (p : PgProc) :
    pgRoutineShown f c n p = pgRoutineShown f d n p := by
  unfold pgRoutineShown
  rw [pgOfExtension_same hs]

/-- The same routines in another order give the same rows in another order. -/
theorem pgRoutines_same {f : Filter} {c d : PgRoutines} (hs : SameRoutines c d) {xs : List Routine}
    (h : pgRoutines f c = some xs) : ∃ ys, pgRoutines f d = some ys ∧ xs.Perm ys := by
  unfold pgRoutines at h ⊢
  have hany : (c.procs.any fun p => p.prokind == 'a' && c.namespaces.any fun n => pgRoutineShown f c n p) =
      d.procs.any fun p => p.prokind == 'a' && d.namespaces.any fun n => pgRoutineShown f d n p := by
    rw [hs.procs.any_eq]
    congr 1
    funext p
    rw [hs.namespaces.any_eq]
    simp only [pgRoutineShown_same hs]
  rw [hany] at h
  by_cases ha : (d.procs.any fun p => p.prokind == 'a' && d.namespaces.any fun n => pgRoutineShown f d n p) = true
  · rw [if_pos ha] at h; cases h
  rw [if_neg ha] at h ⊢
  refine ⟨_, rfl, ?_⟩
  rw [← Option.some.inj h]
  refine (hs.procs.flatMap_right _).trans (flatMap_perm fun p _ => (hs.namespaces.flatMap_right _).trans
    (flatMap_perm fun n _ => ?_))
  rw [pgRoutineShown_same hs]
  have erow : pgRoutineRow c n p = pgRoutineRow d n p := by
    funext x
    unfold pgRoutineRow
    rw [hs.arguments, hs.functiondef, hs.result]
  rw [erow]
  by_cases hc : pgRoutineShown f d n p = true
  · rw [if_pos hc, if_pos hc]
    exact (leftJoin_perm hs.descriptions _).map _
  · rw [if_neg hc, if_neg hc]

/-- C116: the routines of Postgres come in the same order, however they are stored, if no two that are
reported have the same name in the same schema. -/
theorem pg_routines_again_partial {le : Str → Str → Prop} {f : Filter} {c d : PgRoutines} (hs : SameRoutines c d)
    {xs : List Routine} (hxs : pgRoutines f c = some xs)
    (hn : (xs.map fun x => (x.routineSchema, x.routineName)).Nodup) (ha : Apart le pgRoutineOrder xs) {x : List Routine}
    (hx : Answers le pgRoutineOrder xs x) :
    ∃ ys, pgRoutines f d = some ys ∧ ∀ y, Answers le pgRoutineOrder ys y → x = y := by
  obtain ⟨ys, e, hp⟩ := pgRoutines_same hs hxs
  refine ⟨ys, e, fun y hy => answers_unique hp ?_ ha hx hy⟩
  refine map_nodup_of (nodup_of_map hn) fun i hi j hj h => map_nodup_inj hn hi hj ?_
  simp only [pgRoutineOrder, List.cons.injEq, and_true] at h
  simp only [h.1, h.2]

/-! ## Tables of Postgres -/

theorem pgComments_perm {c d : PgTables} (hs : SamePg c d) (oid : Nat) : (pgComments c oid).Perm (pgComments d oid) := by
  have hp := hs.descriptions.filter fun x => x.objoid == oid
  unfold pgComments
  cases e : c.descriptions.filter fun x => x.objoid == oid with
  | nil =>
    rw [e] at hp
    rw [← hp.nil_eq]
  | cons a l =>
    cases e' : d.descriptions.filter fun x => x.objoid == oid with
    | nil => rw [e, e'] at hp; cases hp.eq_nil
    | cons b m =>
      rw [e, e'] at hp
      exact hp.map _

/-- C116: the tables of Postgres come in the same order, however they are stored, if each is reported
once (C109). -/
theorem pg_tables_again_partial {le : Str → Str → Prop} {f : Filter} {c d : PgTables} (hs : SamePg c d)
    (hn : ((pgTables f c).map fun r => (r.1, r.2.1)).Nodup) (ha : Apart le tableOrder (pgTables f c))
    {x y : List (Str × Str × Str)} (hx : Answers le tableOrder (pgTables f c) x)
    (hy : Answers le tableOrder (pgTables f d) y) : x = y := by
  refine answers_unique ?_ ?_ ha hx hy
  · unfold pgTables
    refine (hs.classes.flatMap_right _).trans (flatMap_perm fun p _ => (hs.namespaces.flatMap_right _).trans
      (flatMap_perm fun n _ => ?_))
    split
    · exact (pgComments_perm hs _).map _
    · exact .refl _
  · refine map_nodup_of (nodup_of_map hn) fun i hi j hj h => map_nodup_inj hn hi hj ?_
    simp only [tableOrder, List.cons.injEq, and_true] at h
    simp only [h.1, h.2]

end Sqddl.Scripts
