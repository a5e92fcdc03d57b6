import Verif.Props.ScriptIndexesSqlserver

/-!
# C110: the foreign keys and checks of SQL Server are reported as they were defined
-/

namespace Sqddl.Scripts
open OwnSpec IndexSpec

/-- what a foreign key is grouped by -/
def fkGroup (t t' : MsTab) (k : MsFkey) : MsForeign :=
  ⟨t.schema, t.name, k.name, t'.schema, t'.name, k.onUpdate, k.onDelete, k.notTrusted⟩

/-- C110: the foreign keys of SQL Server that are reported are those of the tables that are asked for,
each once, with the table that is referenced, the pairs of columns in their order, the actions, and
whether it is trusted. -/
theorem sqlserver_foreign_partial {fold : Char → Char} {shipped : MsTab → Prop} {f : Filter}
    {db : List MsTab} {c : MsInfo} (hf : OneOf f.schemas f.excludeSchemas) (ht : OneOf f.tables f.excludeTables)
    (hs : MsShows db c) (hv : MsValid db) (hn : MsPlain fold shipped db) :
    (∀ x, x ∈ msForeign fold f c ↔ ∃ t ∈ db, ∃ k ∈ t.fkeys, ∃ t' ∈ db, t'.id = k.refTable ∧
      MsAsked shipped f t ∧
      x = (⟨t.schema, t.name, k.name, t'.schema, t'.name, k.onUpdate, k.onDelete, k.notTrusted⟩,
        k.cols.map (·.1.2), k.cols.map (·.2.2))) ∧
    (msForeign fold f c).Nodup := by
  have hpn : (fkeysOf db).Nodup := (List.pairwise_map.mp hv.fkIds).imp fun h e => h (by rw [e])
  have href : ∀ p ∈ fkeysOf db, ∃ t' ∈ db, t'.id = p.2.refTable ∧
      ∀ x ∈ p.2.cols, x.1 ∈ p.1.columns ∧ x.2 ∈ t'.columns := by
    intro p hp
    obtain ⟨h1, h2⟩ := mem_fkeysOf.mp hp
    exact (hv.fkCols p.1 h1 p.2 h2).2
  let items : List (MsForeign × List (Str × Str)) := (fkeysOf db).flatMap fun p =>
    db.flatMap fun t' => if (t'.id == p.2.refTable && msShown fold f (tableRow p.1)) = true then
      [(fkGroup p.1 t' p.2, p.2.cols.map fun x => (x.1.2, x.2.2))] else []
  have htarget : ∀ {R : Type} (n : Nat) (t' : MsTab) (g : MsTab → List R), t' ∈ db → t'.id = n →
      (db.flatMap fun t => if (t.id == n) = true then g t else []) = g t' := by
    intro R n t' g h1 h2
    rw [flatMap_only h1 ((List.pairwise_map.mp hv.ids).imp fun h e => h (by rw [e])), if_pos (by simp [h2])]
    intro t h3 hne
    refine if_neg fun h => hne ?_
    simp only [beq_iff_eq] at h
    exact map_nodup_inj hv.ids h3 h1 (h.trans h2.symm)
  have hitem : ∀ p ∈ fkeysOf db, ∀ t' ∈ db, t'.id = p.2.refTable →
      (db.flatMap fun t' => if (t'.id == p.2.refTable && msShown fold f (tableRow p.1)) = true then
        [(fkGroup p.1 t' p.2, p.2.cols.map fun x => (x.1.2, x.2.2))] else []) =
      if msShown fold f (tableRow p.1) = true then [(fkGroup p.1 t' p.2, p.2.cols.map fun x => (x.1.2, x.2.2))]
      else [] := by
    intro p _ t' h1 h2
    rw [← htarget p.2.refTable t' (fun t' => if msShown fold f (tableRow p.1) = true then
      [(fkGroup p.1 t' p.2, p.2.cols.map fun x => (x.1.2, x.2.2))] else []) h1 h2]
    refine flatMap_congr fun t _ => ?_
    by_cases h : (t.id == p.2.refTable) = true
    · simp only [h, Bool.true_and, if_true]
    · have h' : (t.id == p.2.refTable) = false := by simpa using h
      simp only [h', Bool.false_and, if_neg Bool.false_ne_true]
  have hmem : ∀ y, y ∈ items ↔ ∃ t ∈ db, ∃ k ∈ t.fkeys, ∃ t' ∈ db, t'.id = k.refTable ∧ MsAsked shipped f t ∧
      y = (fkGroup t t' k, k.cols.map fun x => (x.1.2, x.2.2)) := by
    intro y
    simp only [items]
    rw [List.mem_flatMap]
    constructor
    · rintro ⟨p, hp, hy⟩
      obtain ⟨t', ht', hy⟩ := List.mem_flatMap.mp hy
      by_cases hc : (t'.id == p.2.refTable && msShown fold f (tableRow p.1)) = true
      · rw [if_pos hc, List.mem_singleton] at hy
        rw [Bool.and_eq_true, beq_iff_eq] at hc
        obtain ⟨h1, h2⟩ := mem_fkeysOf.mp hp
        exact ⟨p.1, h1, p.2, h2, t', ht', hc.1, (msShown_iff hf ht hn h1).mp hc.2, hy⟩
      · rw [if_neg hc] at hy; cases hy
    · rintro ⟨t, h1, k, h2, t', h3, h4, h5, rfl⟩
      refine ⟨(t, k), mem_fkeysOf.mpr ⟨h1, h2⟩, List.mem_flatMap.mpr ⟨t', h3, ?_⟩⟩
      rw [if_pos (by simp [h4, (msShown_iff hf ht hn h1).mpr h5])]
      exact List.mem_cons_self ..
  have hk : (items.map (·.1)).Nodup := by
    have hpm := pairs_nodup (g := MsTab.fkeys) (ka := fun t => (t.schema, t.name)) (kb := MsFkey.name) hv.names
      hv.fkNames
    simp only [items]
    rw [List.map_flatMap]
    unfold List.Nodup
    rw [List.pairwise_flatMap]
    constructor
    · intro p hp
      obtain ⟨t', h1, h2, _⟩ := href p hp
      rw [hitem p hp t' h1 h2]
      by_cases hc : msShown fold f (tableRow p.1) = true
      · rw [if_pos hc]; simp
      · rw [if_neg hc]; simp
    · refine List.Pairwise.imp_of_mem ?_ hpn
      intro p q hp hq hpq x hx y hy e
      obtain ⟨t1, h1, h2, _⟩ := href p hp
      obtain ⟨t2, h3, h4, _⟩ := href q hq
      rw [hitem p hp t1 h1 h2] at hx
      rw [hitem q hq t2 h3 h4] at hy
      by_cases hc : msShown fold f (tableRow p.1) = true
      · by_cases hd : msShown fold f (tableRow q.1) = true
        · rw [if_pos hc, List.map_cons, List.map_nil, List.mem_singleton] at hx
          rw [if_pos hd, List.map_cons, List.map_nil, List.mem_singleton] at hy
          rw [hx, hy] at e
          simp only [fkGroup, MsForeign.mk.injEq] at e
          exact hpq (map_nodup_inj hpm hp hq (by simp only [e.1, e.2.1, e.2.2.1]))
        · rw [if_neg hd] at hy; cases hy
      · rw [if_neg hc] at hx; cases hx
  have hp : (grouped (c.fks.flatMap fun k => c.fkColumns.flatMap fun x => c.tables.flatMap fun t1 =>
      c.tables.flatMap fun t2 => c.columns.flatMap fun c1 => c.columns.flatMap fun c2 =>
        if t1.id == k.table && x.fk == k.id && (c1.id == x.column && c1.table == x.table) &&
            (c2.id == x.refColumn && c2.table == x.refTable) && t2.id == x.refTable && msShown fold f t1 then
          [((⟨t1.schema, t1.name, k.name, t2.schema, t2.name, k.updateRule, k.deleteRule, k.notTrusted⟩ :
            MsForeign), x.seq, c1.name, c2.name)]
        else [])).Perm items := by
    refine grouped_perm 1 hk ?_ ?_
    · intro y hy
      obtain ⟨t, h1, k, h2, t', _, _, _, rfl⟩ := (hmem y).mp hy
      exact fun e => (hv.fkCols t h1 k h2).1 (List.map_eq_nil_iff.mp e)
    · refine (join_perm _ hpn hs.fks hs.fkColumns ?_).trans (.of_eq ?_)
      · intro p hp q hq hqp x hx
        unfold fkColumnRows at hx
        obtain ⟨y, _, rfl⟩ := List.mem_map.mp hx
        have : (q.2.id == p.2.id) = false := by
          rw [beq_eq_false_iff_ne]
          exact fun e => hqp (map_nodup_inj hv.fkIds hq hp e)
        simp only [this, Bool.and_false, Bool.false_and, if_neg Bool.false_ne_true]
        simp
      · simp only [items]
        rw [List.flatMap_assoc]
        refine flatMap_congr fun p hp => ?_
        obtain ⟨t', h1, h2, h3⟩ := href p hp
        have hpd := (mem_fkeysOf.mp hp).1
        rw [hitem p hp t' h1 h2]
        unfold fkColumnRows
        rw [List.flatMap_map]
        have hrow : ∀ y ∈ p.2.cols.zipIdx 1,
            (c.tables.flatMap fun t1 => c.tables.flatMap fun t2 => c.columns.flatMap fun c1 =>
              c.columns.flatMap fun c2 =>
              if t1.id == p.1.id && p.2.id == p.2.id && (c1.id == y.1.1.1 && c1.table == p.1.id) &&
                  (c2.id == y.1.2.1 && c2.table == p.2.refTable) && t2.id == p.2.refTable && msShown fold f t1 then
                [((⟨t1.schema, t1.name, p.2.name, t2.schema, t2.name, p.2.onUpdate, p.2.onDelete, p.2.notTrusted⟩ :
                  MsForeign), y.2, c1.name, c2.name)]
              else []) =
            if msShown fold f (tableRow p.1) = true then [(fkGroup p.1 t' p.2, y.2, y.1.1.2, y.1.2.2)] else [] := by
          intro y hy
          have hy' : y.1 ∈ p.2.cols := by
            have : y.1 ∈ (p.2.cols.zipIdx 1).map (·.1) := List.mem_map.mpr ⟨y, hy, rfl⟩
            rwa [show (p.2.cols.zipIdx 1).map (·.1) = p.2.cols from List.zipIdx_map_fst 1 p.2.cols] at this
          obtain ⟨hc1, hc2⟩ := h3 y.1 hy'
          refine Eq.trans ?_ (table_one hs hv hpd (fun t1 => if msShown fold f t1 = true then
            [((⟨t1.schema, t1.name, p.2.name, t'.schema, t'.name, p.2.onUpdate, p.2.onDelete, p.2.notTrusted⟩ :
              MsForeign), y.2, y.1.1.2, y.1.2.2)] else []))
          refine flatMap_congr fun t1 _ => ?_
          by_cases hd : (t1.id == p.1.id) = true
          · rw [if_pos hd]
            by_cases he : msShown fold f t1 = true
            · rw [if_pos he]
              simp only [hd, he, beq_self_eq_true, Bool.true_and, Bool.and_true]
              refine Eq.trans ?_ (table_one hs hv h1 (fun t2 : MsTable => [((⟨t1.schema, t1.name, p.2.name, t2.schema,
                t2.name, p.2.onUpdate, p.2.onDelete, p.2.notTrusted⟩ : MsForeign), y.2, y.1.1.2, y.1.2.2)]))
              refine flatMap_congr fun t2 _ => ?_
              rw [h2]
              by_cases hg : (t2.id == p.2.refTable) = true
              · rw [if_pos hg]
                simp only [hg, Bool.and_true]
                refine Eq.trans ?_ (column_one hs hv hpd hc1 (fun c1 : MsColumn => [((⟨t1.schema, t1.name, p.2.name,
                  t2.schema, t2.name, p.2.onUpdate, p.2.onDelete, p.2.notTrusted⟩ : MsForeign), y.2, c1.name,
                  y.1.2.2)]))
                refine flatMap_congr fun c1 _ => ?_
                by_cases hc : (c1.id == y.1.1.1 && c1.table == p.1.id) = true
                · rw [if_pos hc]
                  simp only [hc, Bool.true_and]
                  have := column_one hs hv h1 hc2 (fun c2 => [((⟨t1.schema, t1.name, p.2.name, t2.schema, t2.name,
                    p.2.onUpdate, p.2.onDelete, p.2.notTrusted⟩ : MsForeign), y.2, c1.name, c2.name)])
                  rw [h2] at this
                  exact this
                · have hc' : (c1.id == y.1.1.1 && c1.table == p.1.id) = false := by simpa using hc
                  simp only [hc', Bool.false_and, if_neg Bool.false_ne_true]
                  simp
              · have hg' : (t2.id == p.2.refTable) = false := by simpa using hg
                simp only [hg', Bool.and_false, if_neg Bool.false_ne_true]
                simp
            · have he' : msShown fold f t1 = false := by simpa using he
              simp only [he', Bool.and_false, if_neg Bool.false_ne_true]
              simp
          · have hd' : (t1.id == p.1.id) = false := by simpa using hd
            simp only [hd', Bool.false_and, if_neg Bool.false_ne_true]
            simp
        rw [flatMap_congr hrow]
        by_cases hc : msShown fold f (tableRow p.1) = true
        · simp only [hc, if_true, List.flatMap_cons, List.flatMap_nil, List.append_nil]
          unfold spread
          rw [numbered_zipIdx, List.zipIdx_map, List.map_map, List.map_map, ← List.map_eq_flatMap]
          rfl
        · simp only [hc]
          simp
  have hq : (msForeign fold f c).Perm (items.map fun g => (g.1, g.2.map (·.1), g.2.map (·.2))) := hp.map _
  constructor
  · intro x
    rw [hq.mem_iff, List.mem_map]
    constructor
    · rintro ⟨y, hy, rfl⟩
      obtain ⟨t, h1, k, h2, t', h3, h4, h5, rfl⟩ := (hmem y).mp hy
      exact ⟨t, h1, k, h2, t', h3, h4, h5, by simp only [List.map_map]; rfl⟩
    · rintro ⟨t, h1, k, h2, t', h3, h4, h5, rfl⟩
      exact ⟨_, (hmem _).mpr ⟨t, h1, k, h2, t', h3, h4, h5, rfl⟩, by simp only [List.map_map]; rfl⟩
  · refine hq.nodup_iff.mpr (map_nodup_of (nodup_of_keys hk) ?_)
    intro x hx y hy e
    exact key_inj hk hx hy (congrArg (·.1) e)

/-- C110: the checks of SQL Server that are reported are those of the tables that are asked for, each
once, with its expression and whether it is trusted. -/
theorem sqlserver_checks_partial {fold : Char → Char} {shipped : MsTab → Prop} {f : Filter}
    {db : List MsTab} {c : MsInfo} (hf : OneOf f.schemas f.excludeSchemas) (ht : OneOf f.tables f.excludeTables)
    (hs : MsShows db c) (hv : MsValid db) (hn : MsPlain fold shipped db) :
    (∀ x, x ∈ msChecks fold f c ↔ ∃ t ∈ db, ∃ k ∈ t.checks, MsAsked shipped f t ∧
      x = (t.schema, t.name, k.1, k.2.1, k.2.2)) ∧
    (msChecks fold f c).Nodup := by
  let sel : MsTab → Bool := fun t => msShown fold f (tableRow t)
  have hp : (msChecks fold f c).Perm ((db.filter sel).flatMap fun t => t.checks.map fun k =>
      (t.schema, t.name, k.1, k.2.1, k.2.2)) := by
    unfold msChecks
    refine (hs.checks.flatMap_right _).trans (.of_eq ?_)
    rw [List.flatMap_assoc, ← flatMap_if]
    refine flatMap_congr fun t h => ?_
    rw [List.flatMap_map]
    have hrow : ∀ k ∈ t.checks, (c.tables.flatMap fun x =>
        if (x.id == t.id && msShown fold f x) = true then [(x.schema, x.name, k.1, k.2.1, k.2.2)] else []) =
        if sel t = true then [(t.schema, t.name, k.1, k.2.1, k.2.2)] else [] := by
      intro k _
      have := table_one hs hv h (fun x => if msShown fold f x = true then
        [(x.schema, x.name, k.1, k.2.1, k.2.2)] else [])
      refine Eq.trans (flatMap_congr fun x _ => ?_) this
      by_cases hx : (x.id == t.id) = true
      · simp only [hx, Bool.true_and, if_true]
      · have hx' : (x.id == t.id) = false := by simpa using hx
        simp only [hx', Bool.false_and, if_neg Bool.false_ne_true]
    rw [flatMap_congr hrow]
    by_cases hc : sel t = true
    · simp only [hc, if_true]
      rw [← List.map_eq_flatMap]
    · simp only [hc]
      simp
  constructor
  · intro x
    rw [hp.mem_iff, List.mem_flatMap]
    constructor
    · rintro ⟨t, h, hx⟩
      rw [List.mem_filter] at h
      obtain ⟨k, hk, rfl⟩ := List.mem_map.mp hx
      exact ⟨t, h.1, k, hk, (msShown_iff hf ht hn h.1).mp h.2, rfl⟩
    · rintro ⟨t, h1, k, hk, h2, rfl⟩
      exact ⟨t, List.mem_filter.mpr ⟨h1, (msShown_iff hf ht hn h1).mpr h2⟩, List.mem_map.mpr ⟨k, hk, rfl⟩⟩
  · refine hp.nodup_iff.mpr ?_
    unfold List.Nodup
    rw [List.pairwise_flatMap]
    constructor
    · intro t h
      refine List.pairwise_map.mpr ((List.pairwise_map.mp (hv.checkNames t (List.mem_filter.mp h).1)).imp ?_)
      intro a b hab e
      exact hab (congrArg (·.2.2.1) e)
    · refine ((List.pairwise_map.mp hv.names).filter _).imp ?_
      intro a b hab x hx y hy e
      obtain ⟨u, _, rfl⟩ := List.mem_map.mp hx
      obtain ⟨v, _, rfl⟩ := List.mem_map.mp hy
      simp only [Prod.mk.injEq] at e
      exact hab (by rw [e.1, e.2.1])

end Sqddl.Scripts
