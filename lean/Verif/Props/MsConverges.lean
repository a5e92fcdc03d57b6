import Verif.Lemmas.MsRedo

/-!
# A SQL Server migration turns the one database into the other (C67)
-/

namespace MsSpec
open SqlSpec Sqddl DdlText Sqddl.Sqlserver
open EngineSpec hiding tab tab_some tab_mem hasTable_tab hasTableConstraint_tab mem_common_iff
open MsText (Act Differs)
open PgText (newFkeys goneFkeys)
open PgSpec (tab tab_some tab_mem hasTable_tab hasTableConstraint_tab mem_common_iff foreign_not_primary
  withTable_self withTable_other withTable_eq)
open CatalogSpec (keyConstraint foreignKey liveColumns liveConstraints liveIndexes hasColumn hasIndex
  hasConstraint commonTables TableOk liveTables liveSchemas hasTable hasSchema hasTableConstraint)

theorem ms_server : CatalogSpec.Server .sqlserver := by simp [CatalogSpec.Server]

theorem flatten_stmts {α β : Type} (gs : List (List α)) (f : α → β) :
    gs.flatMap (fun g => g.map f) = gs.flatten.map f := by
  rw [List.flatMap_def, List.map_flatten]

section
variable {e : Env} {drop : Bool} {src dest : Catalog} (hcoll : e.coll = src.defaultCollation)
  (hs : Described src) (hd : Described dest) (hc : Comparable e.cur e.coll drop src dest)

/-! ## Foreign keys that are dropped and added again -/

include hcoll hs hd hc in
/-- What is known about a foreign key that is dropped and added again. -/
theorem redone_facts {x : Constraint}
    (h : x ∈ (redone (diffEnv src dest drop) src dest).map (·.2)) :
    ∃ s t, tab src (x.tableSchema, x.tableName) = some s ∧ tab dest (x.tableSchema, x.tableName) = some t ∧
      findCon s x.constraintName = some x ∧ foreignKey x = true ∧
      goalCon e.cur drop s t x.constraintName = some (conOf .sqlserver e.cur x) := by
  obtain ⟨f, hf, rfl⟩ := List.mem_map.1 h
  obtain ⟨t, h1, h2, h3, h4, h5, h6⟩ := (mem_redone hcoll hs hd hc).1 hf
  have hok := pairOk hs hd hc (p := (f.1, t)) ((mem_common_iff hd.ok).2 ⟨_, h1, h2⟩)
  obtain ⟨e1, e2⟩ := hs.owned.constraints f.1 (tab_some h1).1 f.2 h3
  rw [e1, e2]
  exact ⟨f.1, t, h1, h2, find_src hok h3, h4,
    (goalCon_src hok (find_src hok h3)).1.resolve_right h5⟩

include hcoll hs hd hc in
theorem redone_key {k : Key} {n : Str} :
    (k, n) ∈ ((redone (diffEnv src dest drop) src dest).map (·.2)).map conKey ↔
      redo src dest drop k n = true := by
  rw [List.map_map]
  have hk : ∀ f ∈ redone (diffEnv src dest drop) src dest,
      conKey f.2 = ((f.1.tableSchema, f.1.tableName), f.2.constraintName) := by
    intro f hf
    obtain ⟨t, h1, h2, h3, h4, h5, h6⟩ := (mem_redone hcoll hs hd hc).1 hf
    obtain ⟨e1, e2⟩ := hs.owned.constraints f.1 (tab_some h1).1 f.2 h3
    rw [conKey, e1, e2]
  unfold redo
  rw [List.mem_map, List.any_eq_true]
  constructor
  · rintro ⟨f, hf, h⟩
    have h : conKey f.2 = (k, n) := h
    rw [hk f hf] at h
    injection h with h1 h2
    exact ⟨f, hf, by rw [h1, h2]; simp⟩
  · rintro ⟨f, hf, h⟩
    simp only [Bool.and_eq_true, beq_iff_eq] at h
    refine ⟨f, hf, ?_⟩
    show conKey f.2 = (k, n)
    rw [hk f hf, h.1, h.2]

include hcoll hs hd hc in
theorem redone_keys_nodup :
    (((redone (diffEnv src dest drop) src dest).map (·.2)).map conKey).Nodup := by
  have h0 := redone_nodup hs.ok hd.ok drop hc.one
  rw [List.map_map, List.Nodup, List.pairwise_map]
  refine List.Pairwise.imp_of_mem ?_ h0
  intro f g hf hg hne he
  apply hne
  obtain ⟨t, h1, h2, h3, h4, h5, h6⟩ := (mem_redone hcoll hs hd hc).1 hf
  obtain ⟨t', h1', h2', h3', h4', h5', h6'⟩ := (mem_redone hcoll hs hd hc).1 hg
  obtain ⟨e1, e2⟩ := hs.owned.constraints f.1 (tab_some h1).1 f.2 h3
  obtain ⟨e3, e4⟩ := hs.owned.constraints g.1 (tab_some h1').1 g.2 h3'
  have he : conKey f.2 = conKey g.2 := he
  unfold conKey at he
  rw [e1, e2, e3, e4] at he
  injection he with he1 he2
  rw [he1, h1'] at h1
  injection h1 with h1
  have hok := pairOk hs hd hc (p := (g.1, t')) ((mem_common_iff hd.ok).2 ⟨_, h1', h2'⟩)
  have h7 := find_src hok h3'
  rw [h1] at h3' h7
  have h8 := find_src (pairOk hs hd hc (p := (f.1, t)) ((mem_common_iff hd.ok).2 ⟨_, h1 ▸ he1 ▸ h1', h2⟩)) h3
  rw [he2, h7] at h8
  injection h8 with h8
  exact Prod.ext h1.symm h8.symm

/-! ## The parts of the migration -/

include hcoll hs hd hc in
theorem run_dropFkeys {N : Numbers} {xs : List Constraint}
    (hperm : xs.Perm ((if drop then (goneFkeys src dest).map (·.2) else []) ++
      (redone (diffEnv src dest drop) src dest).map (·.2))) :
    Runs N (dbOf e.cur e.coll src) (xs.map (dropFkeyOf e)) (stateA e drop src dest) := by
  have hgone : ∀ x, x ∈ (goneFkeys src dest).map (·.2) → ∃ t,
      tab src (x.tableSchema, x.tableName) = some t ∧ findCon t x.constraintName = some x ∧
      foreignKey x = true ∧ hasTableConstraint dest x.tableSchema x.tableName x.constraintName = false := by
    intro x hx
    rw [PgSpec.goneFkeys_eq] at hx
    obtain ⟨t, h2, h3, h4⟩ := mem_constraintsOf hs hx
    simp only [Bool.and_eq_true, Bool.not_eq_true'] at h4
    have h5 := (tab_some h2).2
    injection h5 with h5 h6
    rw [h5, h6] at h4
    exact ⟨t, h2, h3, h4.1, h4.2⟩
  have hmem : ∀ x ∈ xs, ∃ t, tab src (x.tableSchema, x.tableName) = some t ∧
      findCon t x.constraintName = some x ∧ foreignKey x = true := by
    intro x hx
    rcases List.mem_append.1 (hperm.mem_iff.1 hx) with hx | hx
    · cases drop with
      | false => cases hx
      | true =>
        obtain ⟨t, h1, h2, h3, _⟩ := hgone x hx
        exact ⟨t, h1, h2, h3⟩
    · obtain ⟨s, t, h1, h2, h3, h4, _⟩ := redone_facts hcoll hs hd hc hx
      exact ⟨s, h1, h3, h4⟩
  have hmap := fullName_map (cur := e.cur) hs fun x hx' => (hmem x hx').imp fun _ h => h.1
  have hgk : ∀ k n, (k, n) ∈ (if drop then (goneFkeys src dest).map (·.2) else []).map conKey →
      drop = true ∧ hasTableConstraint dest k.1 k.2 n = false := by
    intro k n h
    cases drop with
    | false => cases h
    | true =>
      obtain ⟨x, hx, he⟩ := List.mem_map.1 h
      obtain ⟨t, _, _, _, h4⟩ := hgone x hx
      injection he with h1 h2
      subst h1 h2
      exact ⟨rfl, h4⟩
  have hrun := phase_dropFkeys (N := N) (S := dbOf e.cur e.coll src)
    (fun x : Constraint => fullName e.cur x.tableSchema x.tableName) (fun x => x.constraintName)
    xs (fun _ _ => false) (by
      rw [hmap, (hperm.map conKey).nodup_iff, List.map_append, List.nodup_append]
      refine ⟨?_, redone_keys_nodup hcoll hs hd hc, ?_⟩
      · cases drop with
        | false => exact List.nodup_nil
        | true =>
          rw [if_pos rfl, PgSpec.goneFkeys_eq]
          exact conKey_nodup hs _
      · rintro ⟨k, n⟩ ha b hb rfl
        obtain ⟨h1, h2⟩ := hgk k n ha
        have h3 := (redone_key hcoll hs hd hc).1 hb
        obtain ⟨s, t, x, h4, h5, h6, h7, h8, _⟩ := (redo_iff hcoll hs hd hc).1 h3
        have h9 : lacks (endDb e drop src dest) k n = false := by
          rw [lacks_false]
          refine ⟨endTbl e drop s t, ?_⟩
          cases h10 : goalCon e.cur drop s t n with
          | none => exact absurd h10 h8
          | some c => exact ⟨c, by rw [end_src h4, h5], h10⟩
        rw [lacks_goal hd.ok h4 h6 h7, h1, h2] at h9
        cases h9)
    (by
      intro x hx'
      obtain ⟨t, h1, h2, h3⟩ := hmem x hx'
      refine ⟨rfl, tblOf e.cur e.coll t, conOf .sqlserver e.cur x, ?_, ?_, ?_⟩
      · rw [key_fullName (tab_schema_ne hs h1), srcDb_table, h1]; rfl
      · show (findCon t x.constraintName).map _ = _
        rw [h2]; rfl
      · rw [isF_conOf, h3])
  rw [PgSpec.cut_nothing] at hrun
  have hcut : stateA e drop src dest = (dbOf e.cur e.coll src).cut fun k n => false ||
        decide ((k, n) ∈ xs.map fun x =>
          (key (fullName e.cur x.tableSchema x.tableName), x.constraintName)) := by
    refine cut_congr fun k t n c h1 h2 h3 => ?_
    rw [srcDb_table] at h1
    obtain ⟨s, h4, rfl⟩ := Option.map_eq_some_iff.1 h1
    obtain ⟨x, h5, rfl⟩ := Option.map_eq_some_iff.1 h2
    rw [isF_conOf] at h3
    rw [lacks_goal hd.ok h4 h5 h3, hmap, Bool.false_or, Bool.eq_iff_iff, decide_eq_true_iff,
      (hperm.map conKey).mem_iff, List.map_append, List.mem_append, redone_key hcoll hs hd hc,
      Bool.or_eq_true]
    refine or_congr ?_ Iff.rfl
    constructor
    · intro h
      simp only [Bool.and_eq_true, Bool.not_eq_true'] at h
      obtain ⟨rfl, h⟩ := h
      rw [if_pos rfl, PgSpec.goneFkeys_eq, conKey_mem hs]
      have e1 := (tab_some h4).2
      have e2 := (find_some h5).2
      subst e1 e2
      exact ⟨s, x, h4, h5, by rw [h3, h]; rfl⟩
    · intro h
      obtain ⟨h6, h7⟩ := hgk k n h
      rw [h6, h7]; rfl
  rw [hcut]
  exact hrun

variable (hS : Consistent (dbOf e.cur e.coll src)) (hG : Consistent (endDb e drop src dest))

include hs hd hc hS hG in
theorem run_dropSchemas {N : Numbers} :
    Runs N (stateA e drop src dest)
      (((mssqlEvents src dest drop).filterMap Ev.dropSchema?).flatMap (dropSchemaOf e))
      { schema := fun s => (dbOf e.cur e.coll src).schema s && (endDb e drop src dest).schema s
        table := fun k => if (endDb e drop src dest).schema k.1 then
          (stateA e drop src dest).table k else none } := by
  have h1 : (mssqlEvents src dest drop).filterMap Ev.dropSchema? = _ :=
    dropSchemas_exact ms_server hs.ok hd.ok drop
  have hmem : ∀ s ∈ (mssqlEvents src dest drop).filterMap Ev.dropSchema?,
      drop = true ∧ s ∈ liveSchemas src ∧ hasSchema dest s.schemaName = false := by
    intro s hs'
    rw [h1] at hs'
    cases drop with
    | false => cases hs'
    | true =>
      obtain ⟨h2, h3⟩ := List.mem_filter.1 hs'
      simp only [Bool.and_eq_true, Bool.not_eq_true'] at h3
      exact ⟨rfl, h2, h3.2⟩
  refine phase_dropSchemas hS hG (way hs hd hc) e _ ?_ ?_ ?_ ?_
  · rw [h1]
    cases drop with
    | false => exact List.nodup_nil
    | true => exact (liveSchemas_nodup hs.ok).sublist (List.filter_sublist.map _)
  · intro n
    rw [h1]
    show _ ↔ hasSchema src n = true ∧ (hasSchema dest n || (!drop && hasSchema src n)) = false
    cases drop with
    | false =>
      cases hasSchema src n <;> simp
    | true =>
      rw [if_pos rfl, mem_schema_names hs fun n => !hasSchema dest n]
      simp
  · intro s hs' n
    exact key_fullName (hs.schemas s (hmem s hs').2.1)
  · intro s hs'
    obtain ⟨hdrop, h2, h3⟩ := hmem s hs'
    obtain ⟨h4, h5⟩ := List.mem_filter.1 h2
    have hok := hs.ok.ok s h4
    refine ⟨hok.tables, fun n => ?_⟩
    rw [srcDb_table]
    have hig := hc.dropped hdrop s h2 h3
    constructor
    · intro hn
      obtain ⟨t, ht, rfl⟩ := List.mem_map.1 hn
      have hl : t ∈ liveTables src :=
        mem_liveTables.2 ⟨s, h4, by simpa using h5, ht, hig t ht⟩
      have := tab_mem hs.ok hl
      rw [hok.schemaName t ht] at this
      rw [this]; rfl
    · intro hn
      cases e1 : tab src (s.schemaName, n) with
      | none => rw [e1] at hn; cases hn
      | some t =>
        obtain ⟨h6, h7⟩ := tab_some e1
        obtain ⟨s', h8, h9, h10, h11⟩ := mem_liveTables.1 h6
        injection h7 with h7 h12
        rw [(hs.ok.ok s' h8).schemaName t h10] at h7
        have h13 : s' = s := by
          have a := find?_self (k := fun s : Schema => s.schemaName) hs.ok.schemas h8
          have b := find?_self (k := fun s : Schema => s.schemaName) hs.ok.schemas h4
          rw [h7, b] at a
          injection a with a
          exact a.symm
        subst h13
        exact List.mem_map.2 ⟨t, h10, h12⟩

include hs hd in
theorem run_createSchemas {N : Numbers} (tb : Key → Option Tbl) :
    Runs N
      { schema := fun s => (dbOf e.cur e.coll src).schema s && (endDb e drop src dest).schema s
        table := tb }
      (((mssqlEvents src dest drop).filterMap Ev.createSchema?).map fun s => .createSchema s s)
      { schema := (endDb e drop src dest).schema, table := tb } := by
  have h1 : (mssqlEvents src dest drop).filterMap Ev.createSchema? = _ :=
    createSchemas_exact ms_server hs.ok hd.ok drop
  refine phase_createSchemas ((mssqlEvents src dest drop).filterMap Ev.createSchema?) ?_ ?_ tb
  · rw [h1]
    exact (liveSchemas_nodup hd.ok).sublist (List.filter_sublist.map _)
  · intro n
    rw [h1, mem_schema_names hd fun n => !hasSchema src n]
    show _ ↔ (hasSchema dest n || (!drop && hasSchema src n)) = true ∧ hasSchema src n = false
    cases hasSchema src n <;> simp

theorem nodup_dropTables (hs : CatalogSpec.Ok src) (hd : CatalogSpec.Ok dest) :
    (((mssqlEvents src dest drop).filterMap Ev.dropTable?).map fun t =>
      (t.tableSchema, t.tableName)).Nodup := by
  have h1 : (mssqlEvents src dest drop).filterMap Ev.dropTable? = _ :=
    dropTables_exact ms_server hs hd drop
  rw [h1]
  cases drop with
  | false => exact List.nodup_nil
  | true =>
    rw [if_pos rfl, List.map_flatMap, List.flatMap_def, List.Nodup, List.pairwise_flatten]
    constructor
    · intro l hl
      obtain ⟨t, ht, rfl⟩ := List.mem_map.1 hl
      exact (liveTables_nodup hs).sublist (List.filter_sublist.map _)
    · rw [List.pairwise_map]
      have h1 := List.pairwise_map.1 (liveSchemas_nodup hd)
      refine h1.imp ?_
      rintro a b h x hx y hy rfl
      obtain ⟨t, h2, e1⟩ := List.mem_map.1 hx
      obtain ⟨t', h3, e2⟩ := List.mem_map.1 hy
      have h4 := (List.mem_filter.1 h2).2
      have h5 := (List.mem_filter.1 h3).2
      simp only [Bool.and_eq_true, beq_iff_eq] at h4 h5
      have e3 := congrArg Prod.fst (e1.trans e2.symm)
      exact h (h4.1.symm.trans (e3.trans h5.1))

include hs hd hc hG in
theorem run_dropTables {N : Numbers} :
    Runs N
      { schema := (endDb e drop src dest).schema
        table := fun k => if (endDb e drop src dest).schema k.1 then
          (stateA e drop src dest).table k else none }
      (((mssqlEvents src dest drop).filterMap Ev.dropTable?).map fun t =>
        .drop .table (fullName e.cur t.tableSchema t.tableName))
      { schema := (endDb e drop src dest).schema
        table := fun k => if ((endDb e drop src dest).table k).isSome then
          (stateA e drop src dest).table k else none } := by
  have h1 : (mssqlEvents src dest drop).filterMap Ev.dropTable? = _ :=
    dropTables_exact ms_server hs.ok hd.ok drop
  have hmem : ∀ t, t ∈ (mssqlEvents src dest drop).filterMap Ev.dropTable? ↔ drop = true ∧
      t ∈ liveTables src ∧ hasSchema dest t.tableSchema = true ∧
        hasTable dest t.tableSchema t.tableName = false := by
    intro t
    rw [h1]
    cases drop with
    | false => simp
    | true => rw [if_pos rfl, mem_dropTables_iff]; simp
  have hmap := fullName_tables (cur := e.cur) hs fun t ht => ((hmem t).1 ht).2.1
  refine phase_dropTables hG (way hs hd hc)
    ((mssqlEvents src dest drop).filterMap Ev.dropTable?)
    (fun t => fullName e.cur t.tableSchema t.tableName) ?_ ?_
  · rw [hmap]
    exact nodup_dropTables hs.ok hd.ok
  · intro k
    rw [hmap, srcDb_table]
    show _ ↔ _ ∧ _ ∧ (hasSchema dest k.1 || (!drop && hasSchema src k.1)) = true
    constructor
    · intro h
      obtain ⟨t, h2, rfl⟩ := List.mem_map.1 h
      obtain ⟨rfl, h3, h4, h5⟩ := (hmem t).1 h2
      rw [hasTable_tab, Option.isSome_eq_false_iff, Option.isNone_iff_eq_none] at h5
      have h6 := tab_mem hs.ok h3
      refine ⟨by rw [h6]; rfl, ?_, by rw [h4]; rfl⟩
      rw [end_src h6, h5]; rfl
    · rintro ⟨h2, h3, h4⟩
      cases e1 : tab src k with
      | none => rw [e1] at h2; cases h2
      | some s =>
        rw [end_src e1] at h3
        cases e2 : tab dest k with
        | some t => rw [e2] at h3; cases h3
        | none =>
          rw [e2] at h3
          cases drop with
          | false => cases h3
          | true =>
            obtain ⟨h5, rfl⟩ := tab_some e1
            refine List.mem_map.2 ⟨s, (hmem s).2 ⟨rfl, h5, by simpa using h4, ?_⟩, rfl⟩
            rw [hasTable_tab, e2]; rfl

theorem tableConstraints_eq (t : Table) :
    tableConstraints .sqlserver true t = (liveConstraints t).filter fun c => !foreignKey c := by
  unfold tableConstraints foreignKey
  refine List.filter_congr fun c _ => ?_
  rw [if_neg (by decide), if_pos rfl]
  rw [show FOREIGN_KEY = b!"FOREIGN KEY" from rfl]
  by_cases e : c.constraintType = b!"FOREIGN KEY" <;> simp [e]

theorem not_exclude {cur : Str} {c : Constraint} (h : c.constraintType ∈
      [b!"PRIMARY KEY", b!"UNIQUE", b!"FOREIGN KEY", b!"CHECK"]) (a : Option Str)
    (b : List (List Tok × List Tok)) (p : Option (List Tok)) : kindOf .sqlserver cur c ≠ .exclude a b p := by
  unfold kindOf
  by_cases h1 : c.constraintType = b!"PRIMARY KEY"
  · rw [if_pos h1]; intro h; cases h
  by_cases h2 : c.constraintType = b!"UNIQUE"
  · rw [if_neg h1, if_pos h2]; intro h; cases h
  by_cases h3 : c.constraintType = b!"FOREIGN KEY"
  · rw [if_neg h1, if_neg h2, if_pos h3]; intro h; cases h
  by_cases h4 : c.constraintType = b!"CHECK"
  · rw [if_neg h1, if_neg h2, if_neg h3, if_pos h4]; intro h; cases h
  simp [h1, h2, h3, h4] at h

variable (hp : Between (dbOf e.cur e.coll src) (endDb e drop src dest))

include hs hd hc hG hp in
theorem run_createTables {N : Numbers} :
    Runs N
      { schema := (endDb e drop src dest).schema
        table := fun k => if ((endDb e drop src dest).table k).isSome then
          (stateA e drop src dest).table k else none }
      (((mssqlEvents src dest drop).filterMap Ev.createTable?).flatMap (createOf e))
      { schema := (endDb e drop src dest).schema
        table := fun k => if ((dbOf e.cur e.coll src).table k).isSome then
          (if ((endDb e drop src dest).table k).isSome then
            (stateA e drop src dest).table k else none)
          else (stateB e drop src dest).table k } := by
  have h1 : (mssqlEvents src dest drop).filterMap Ev.createTable? = _ :=
    createTables_exact ms_server hs.ok hd.ok drop
  have hmem : ∀ t, t ∈ (mssqlEvents src dest drop).filterMap Ev.createTable? ↔ t ∈ liveTables dest ∧
      tab src (t.tableSchema, t.tableName) = none := by
    intro t
    rw [h1, List.mem_filter, hasTable_tab]
    simp
  have hmap := fullName_tables (cur := e.cur) hd fun t ht => ((hmem t).1 ht).1
  have hrun := phase_createTables (N := N) hG (way hs hd hc) hp
    ((mssqlEvents src dest drop).filterMap Ev.createTable?)
    (fun t => fullName e.cur t.tableSchema t.tableName)
    (fun t => (liveColumns t).map (colOf .sqlserver e.coll false))
    (fun t => (tableConstraints .sqlserver true t).map (conOf .sqlserver e.cur))
    (fun t => t.indexes.map fun x => (idxOf .sqlserver e.cur false false x).resolve e.cur)
    (by
      rw [hmap, h1]
      exact (liveTables_nodup hd.ok).sublist (List.filter_sublist.map _))
    (by
      intro k
      rw [hmap, srcDb_table]
      constructor
      · intro h
        obtain ⟨t, h2, rfl⟩ := List.mem_map.1 h
        obtain ⟨h3, h4⟩ := (hmem t).1 h2
        rw [end_new h4, tab_mem hd.ok h3, h4]
        exact ⟨rfl, rfl⟩
      · rintro ⟨h2, h3⟩
        have h4 : tab src k = none := by simpa using h3
        rw [end_new h4] at h2
        cases e : tab dest k with
        | none => rw [e] at h2; cases h2
        | some t =>
          obtain ⟨h5, rfl⟩ := tab_some e
          exact List.mem_map.2 ⟨t, (hmem t).2 ⟨h5, h4⟩, rfl⟩)
    (by
      intro t ht u hu
      obtain ⟨h2, h3⟩ := (hmem t).1 ht
      rw [key_fullName (table_schema_ne hd h2)] at hu ⊢
      have hu0 := hu
      rw [end_new h3, tab_mem hd.ok h2] at hu
      injection hu with hu
      subst hu
      have hok := liveTables_ok hd.ok h2
      obtain ⟨hcr1, hcr2⟩ := hc.created t h2 (by rw [hasTable_tab, h3]; rfl)
      have hlive : liveIndexes t = t.indexes :=
        List.filter_eq_self.2 fun x hx => by rw [hcr1 x hx]; rfl
      have hname : ∀ x ∈ (liveConstraints t).filter fun c => !foreignKey c,
          (conOf .sqlserver e.cur x).name.getD [] = x.constraintName := by
        intro x hx
        rw [conOf_name (by decide) (named hok (List.mem_filter.1 hx).1)]; rfl
      have hcol : ∀ n, (tblOf e.cur e.coll t).col n =
          ((liveColumns t).find? fun y => y.columnName == n).map (colOf .sqlserver e.coll false) :=
        fun _ => rfl
      have hcon : ∀ n, (tblOf e.cur e.coll t).con n =
          ((liveConstraints t).find? fun y => y.constraintName == n).map (conOf .sqlserver e.cur) :=
        fun _ => rfl
      refine ⟨⟨?_, ?_, ?_⟩, ⟨?_, ?_, ?_⟩, ?_, ?_, ?_, ?_⟩
      · rw [List.map_map]
        exact nodup_columns hok
      · intro n hn
        rw [hcol]
        cases e1 : (liveColumns t).find? fun y => y.columnName == n with
        | none => rfl
        | some y =>
          refine absurd ?_ hn
          rw [List.map_map]
          exact List.mem_map.2 ⟨y, (find_some e1).1, (find_some e1).2⟩
      · intro c hc'
        obtain ⟨y, hy, rfl⟩ := List.mem_map.1 hc'
        refine ⟨hcr2 y hy, ?_, ?_⟩
        · rw [hcol]
          rw [show (liveColumns t).find? (fun z => z.columnName ==
            (colOf .sqlserver e.coll false y).name) = some y from
            find?_self (k := fun c : Column => c.columnName) (nodup_columns hok) hy]
          rfl
        · intro hi m d hm hne
          rw [hcol] at hm
          obtain ⟨z, hz, rfl⟩ := Option.map_eq_some_iff.1 hm
          by_cases hzi : z.columnIdentity = []
          · simp [colOf, hzi]
          · have hyi : y.columnIdentity ≠ [] := by
              intro h0
              simp [colOf, h0] at hi
            have h4 := hd.identity t h2 z (find_some hz).1 y hy hzi hyi
            exact absurd ((find_some hz).2.symm.trans h4) hne
      · rw [List.map_map, tableConstraints_eq]
        rw [List.map_congr_left (g := fun x => x.constraintName) hname]
        exact nodup_filter (nodup_constraints hok) _
      · intro n hn c hc'
        rw [hcon] at hc'
        obtain ⟨x, hx, rfl⟩ := Option.map_eq_some_iff.1 hc'
        rw [isF_conOf]
        cases hF : foreignKey x with
        | true => rfl
        | false =>
          refine absurd ?_ hn
          have hx' : x ∈ (liveConstraints t).filter fun c => !foreignKey c :=
            List.mem_filter.2 ⟨(find_some hx).1, by rw [hF]; rfl⟩
          rw [List.map_map, tableConstraints_eq]
          exact List.mem_map.2 ⟨x, hx', (hname x hx').trans (find_some hx).2⟩
      · intro c hc'
        rw [tableConstraints_eq] at hc'
        obtain ⟨x, hx, rfl⟩ := List.mem_map.1 hc'
        obtain ⟨hx1, hx2⟩ := List.mem_filter.1 hx
        refine ⟨?_, ?_, ?_, ?_⟩
        · rw [hname x hx, hcon]
          rw [show (liveConstraints t).find? (fun y => y.constraintName == x.constraintName) = some x from
            find?_self (k := fun c : Constraint => c.constraintName) (nodup_constraints hok) hx1]
          rfl
        · rw [isF_conOf]
          simpa using hx2
        · exact not_exclude (hd.types t h2 x hx1)
        · intro cs hk y hy d hd'
          obtain ⟨hyp, rfl⟩ := kind_primary.1 (show kindOf .sqlserver e.cur x = .primary cs from hk)
          rw [hcol] at hd'
          obtain ⟨b, hb, rfl⟩ := Option.map_eq_some_iff.1 hd'
          have := hd.notNull t h2 x hx1 hyp b (find_some hb).1 ((find_some hb).2 ▸ hy)
          show (b.isNotNull && !computed .sqlserver b) = true
          rw [this.1]
          unfold computed
          simp [this.2]
      · rw [List.map_map]
        exact hok.indexes
      · intro n hn
        show ((liveIndexes t).find? fun y => y.indexName == n).map _ = none
        cases e1 : (liveIndexes t).find? fun y => y.indexName == n with
        | none => rfl
        | some y =>
          refine absurd ?_ hn
          rw [List.map_map]
          exact List.mem_map.2 ⟨y, hlive ▸ (find_some e1).1, (find_some e1).2⟩
      · intro y hy
        obtain ⟨x, hx, rfl⟩ := List.mem_map.1 hy
        obtain ⟨e1, e2⟩ := hd.indexes t h2 x hx
        refine ⟨?_, fullName e.cur t.tableSchema t.tableName, ?_, ?_⟩
        · have := find?_self (k := fun x : Index => x.indexName) (xs := liveIndexes t) (nodup_indexes hok) (hlive ▸ hx)
          show Option.map _ ((liveIndexes t).find? fun z => z.indexName == x.indexName) = _
          rw [this]
          rfl
        · have hne := table_schema_ne hd h2
          simp only [Idx.resolve, idxOf, fullName, e1, e2]
          by_cases e3 : t.tableSchema = e.cur
          · simp [e3, full]
          · simp [hne, e3, full]
        · exact key_fullName (table_schema_ne hd h2)
      · refine dcut_table.2 ⟨_, hu0, Tbl.ext rfl ?_ rfl⟩
        funext n
        show Option.filter _ _ = Option.filter _ _
        have hl : lacks (dbOf e.cur e.coll src) (t.tableSchema, t.tableName) n = true := by
          unfold lacks
          rw [srcDb_table, h3]; rfl
        simp only [hl, Bool.true_or, Bool.and_true])
  have e1 : (((mssqlEvents src dest drop).filterMap Ev.createTable?).flatMap (createOf e)) =
      ((mssqlEvents src dest drop).filterMap Ev.createTable?).flatMap fun x =>
        .base (.createTable (fullName e.cur x.tableSchema x.tableName)
          (((liveColumns x).map (colOf .sqlserver e.coll false)).map .col ++
            ((tableConstraints .sqlserver true x).map (conOf .sqlserver e.cur)).map .con)) ::
          (x.indexes.map fun x => (idxOf .sqlserver e.cur false false x).resolve e.cur).map
            fun y => .base (.createIndex y) := by
    congr 1
    funext t
    rw [List.map_map, List.map_map, List.map_map]
    rfl
  rw [e1]
  exact hrun

/-! ## Tables that are changed -/

/-- The tables before those of the list are changed. -/
def during (e : Env) (drop : Bool) (src dest : Catalog) (ps : List (Table × Table)) (k : Key) : Option Tbl :=
  if k ∈ ps.map (fun p => (p.2.tableSchema, p.2.tableName)) then (stateA e drop src dest).table k
  else (stateB e drop src dest).table k

theorem commonTables_nodup (hd : CatalogSpec.Ok dest) :
    ((commonTables src dest).map fun p => (p.2.tableSchema, p.2.tableName)).Nodup := by
  have h1 : ((commonTables src dest).map (·.2)).Sublist (liveTables dest) := by
    unfold commonTables
    generalize liveTables dest = xs
    induction xs with
    | nil => exact .slnil
    | cons x xs ih =>
      rw [List.filterMap_cons]
      cases (liveTables src).find? (fun s => s.tableSchema == x.tableSchema && s.tableName == x.tableName) with
      | none => exact ih.cons _
      | some y => exact ih.cons_cons _
  have h2 := (liveTables_nodup hd).sublist (h1.map _)
  rw [List.map_map] at h2
  exact h2

include hs hd hc in
/-- A table that is not in both versions is not changed. -/
theorem during_start (k : Key) :
    (if ((dbOf e.cur e.coll src).table k).isSome then
        (if ((endDb e drop src dest).table k).isSome then (stateA e drop src dest).table k else none)
      else (stateB e drop src dest).table k) = during e drop src dest (commonTables src dest) k := by
  unfold during
  cases h1 : tab src k with
  | none =>
    rw [if_neg (by rw [srcDb_table, h1]; exact Bool.false_ne_true), if_neg]
    intro h
    obtain ⟨p, hp, rfl⟩ := List.mem_map.1 h
    obtain ⟨k, h2, h3⟩ := (mem_common_iff hd.ok).1 hp
    have hk := (tab_some h3).2
    subst hk
    rw [h1] at h2
    cases h2
  | some s =>
    have hS1 : (dbOf e.cur e.coll src).table k = some (tblOf e.cur e.coll s) := by
      rw [srcDb_table, h1]; rfl
    rw [if_pos (by rw [hS1]; rfl)]
    cases h2 : tab dest k with
    | some t =>
      rw [if_pos (by rw [end_src h1, h2]; rfl), if_pos]
      exact List.mem_map.2 ⟨(s, t), (mem_common_iff hd.ok).2 ⟨k, h1, h2⟩, (tab_some h2).2⟩
    | none =>
      rw [if_neg (c := k ∈ _) (by
        intro h
        obtain ⟨p, hp, rfl⟩ := List.mem_map.1 h
        obtain ⟨k, h3, h4⟩ := (mem_common_iff hd.ok).1 hp
        have hk := (tab_some h4).2
        subst hk
        rw [h2] at h4
        cases h4)]
      cases drop with
      | true =>
        have h3 : (endDb e true src dest).table k = none := by rw [end_src h1, h2]; rfl
        rw [h3]
        show none = ((endDb e true src dest).table k).map _
        rw [h3]; rfl
      | false =>
        have h3 : (endDb e false src dest).table k = some (tblOf e.cur e.coll s) := by
          rw [end_src h1, h2]; rfl
        rw [h3]
        show ((dbOf e.cur e.coll src).table k).map _ = ((endDb e false src dest).table k).map _
        rw [hS1, h3]
        show some _ = some _
        congr 1
        refine Tbl.ext rfl ?_ rfl
        funext n
        show Option.filter _ (Option.map _ (findCon s n)) = Option.filter _ (Option.map _ (findCon s n))
        cases h6 : findCon s n with
        | none => rfl
        | some x =>
          have h7 : lacks (endDb e false src dest) k n = false := by
            rw [lacks_false]
            exact ⟨_, _, h3, by
              show (findCon s n).map _ = _
              rw [h6]; rfl⟩
          have h8 : lacks (dbOf e.cur e.coll src) k n = false := by
            rw [lacks_false]
            exact ⟨_, _, hS1, by
              show (findCon s n).map _ = _
              rw [h6]; rfl⟩
          simp only [h7, h8]

theorem alters_written (hs : CatalogSpec.Ok src) (hd : CatalogSpec.Ok dest) :
    ((mssqlEvents src dest drop).filterMap Ev.alter?).flatMap (Sqddl.Sqlserver.alterOf e) =
      (commonTables src dest).flatMap fun p =>
        if (mssqlAlterTable (diffEnv src dest drop) p.1 p.2).worthKeeping then
          Sqddl.Sqlserver.alterOf e (mssqlAlterTable (diffEnv src dest drop) p.1 p.2) else [] := by
  have h1 : (mssqlEvents src dest drop).filterMap Ev.alter? = _ := alters_eq ms_server hs hd drop
  rw [h1, List.flatMap_assoc]
  refine flatMap_congr' fun p _ => ?_
  show List.flatMap _ (if (mssqlAlterTable (diffEnv src dest drop) p.1 p.2).worthKeeping = true then _ else _) = _
  cases (mssqlAlterTable (diffEnv src dest drop) p.1 p.2).worthKeeping with
  | true =>
    rw [if_pos rfl, if_pos rfl]
    simp
    rfl
  | false => rfl

include hs hd hc in
/-- The parts of a state between two tables. -/
theorem during_mid (ps : List (Table × Table)) : Mid (dbOf e.cur e.coll src) (endDb e drop src dest)
    (fun k n => redo src dest drop k n = true)
    { schema := (endDb e drop src dest).schema, table := during e drop src dest ps } := by
  intro k t h
  have h : during e drop src dest ps k = some t := h
  unfold during at h
  split at h
  · exact fitsA hs hd hc h
  · exact fitsB hs hd hc h

section
variable (hgoal : Consistent (goalDb e.cur e.coll drop src dest))
  (hpass : Passable e.cur e.coll drop src dest (dbOf e.cur e.coll src) (goalDb e.cur e.coll drop src dest))
  {N : Numbers} (hf : Findable N src dest (dbOf e.cur e.coll src) (goalDb e.cur e.coll drop src dest))

include hcoll hs hd hc hS hgoal hpass hf in
theorem run_alters :
    Runs N { schema := (endDb e drop src dest).schema
             table := during e drop src dest (commonTables src dest) }
      (((mssqlEvents src dest drop).filterMap Ev.alter?).flatMap (Sqddl.Sqlserver.alterOf e))
      (stateB e drop src dest) := by
  rw [alters_written hs.ok hd.ok]
  obtain ⟨db, h1, h2⟩ := runs_flatMap (N := N) (fun p : Table × Table =>
    if (mssqlAlterTable (diffEnv src dest drop) p.1 p.2).worthKeeping then
      Sqddl.Sqlserver.alterOf e (mssqlAlterTable (diffEnv src dest drop) p.1 p.2) else [])
    (fun ps db => db = { schema := (endDb e drop src dest).schema, table := during e drop src dest ps } ∧
      (∀ p ∈ ps, p ∈ commonTables src dest) ∧
      (ps.map fun p => (p.2.tableSchema, p.2.tableName)).Nodup)
    (by
      rintro p ps db ⟨rfl, hall, hnd⟩
      have hpc := hall p List.mem_cons_self
      obtain ⟨hn1, hn2⟩ := List.nodup_cons.1 hnd
      refine ⟨_, ?_, rfl, fun q hq => hall q (List.mem_cons_of_mem _ hq), hn2⟩
      obtain ⟨k, h3, h4⟩ := (mem_common_iff hd.ok).1 hpc
      have hk := (tab_some h4).2
      subst hk
      have sc := scene hcoll hs hd hc hS hgoal hpass hf hpc
      have hok := sc.ok
      rw [hcoll] at hok
      have ch := changes hs.ok hd.ok hpc hok
      rw [← hcoll] at ch
      have hr := runs_written sc ch (during_mid hs hd hc ps)
      have ea : (stateA e drop src dest).table (p.2.tableSchema, p.2.tableName) =
          some (tblA e drop p.1 p.2 (redo src dest drop (p.2.tableSchema, p.2.tableName))) := by
        refine dcut_table.2 ⟨_, sc.oldTbl, ?_⟩
        refine congrArg (fun q => Tbl.cut q _) ?_
        funext n
        unfold lacks
        rw [sc.newTbl]; rfl
      have eb : (stateB e drop src dest).table (p.2.tableSchema, p.2.tableName) =
          some (tblB e drop p.1 p.2 (redo src dest drop (p.2.tableSchema, p.2.tableName))) := by
        refine dcut_table.2 ⟨_, sc.newTbl, ?_⟩
        refine congrArg (fun q => Tbl.cut q _) ?_
        funext n
        unfold lacks
        rw [sc.oldTbl]
        show _ = ((Option.map _ _).isNone || _)
        simp
      have e1 : ({ schema := (endDb e drop src dest).schema, table := during e drop src dest (p :: ps) } : Db) =
          ({ schema := (endDb e drop src dest).schema, table := during e drop src dest ps } : Db).withTable
            (p.2.tableSchema, p.2.tableName)
            (tblA e drop p.1 p.2 (redo src dest drop (p.2.tableSchema, p.2.tableName))) := by
        refine Db.ext rfl ?_
        funext k
        by_cases hk : k = (p.2.tableSchema, p.2.tableName)
        · subst hk
          rw [withTable_self]
          show during e drop src dest (p :: ps) _ = _
          unfold during
          rw [if_pos (by simp), ea]
        · rw [withTable_other _ hk]
          show during e drop src dest (p :: ps) k = during e drop src dest ps k
          unfold during
          simp only [List.map_cons, List.mem_cons, hk, false_or]
      have e2 : ({ schema := (endDb e drop src dest).schema, table := during e drop src dest ps } : Db) =
          ({ schema := (endDb e drop src dest).schema, table := during e drop src dest ps } : Db).withTable
            (p.2.tableSchema, p.2.tableName)
            (tblB e drop p.1 p.2 (redo src dest drop (p.2.tableSchema, p.2.tableName))) := by
        refine (withTable_eq ?_).symm
        show during e drop src dest ps _ = _
        unfold during
        rw [if_neg hn1, eb]
      rw [e1]
      rw [← e2] at hr
      exact hr)
    (commonTables src dest) _ ⟨rfl, fun p h => h, commonTables_nodup hd.ok⟩
  obtain ⟨rfl, -⟩ := h2
  have e3 : ({ schema := (endDb e drop src dest).schema, table := during e drop src dest [] } : Db) =
      stateB e drop src dest := by
    refine Db.ext rfl ?_
    funext k
    show during e drop src dest [] k = _
    unfold during
    rw [if_neg (by simp)]
  rw [e3] at h1
  exact h1

end

/-! ## Foreign keys that are added -/

include hcoll hs hd hc hG in
theorem run_addFkeys {N : Numbers} {xs ys : List Constraint}
    (hx : xs.Perm ((newFkeys src dest false).map (·.2)))
    (hy : ys.Perm ((newFkeys src dest true).map (·.2) ++
      (redone (diffEnv src dest drop) src dest).map (·.2))) :
    Runs N (stateB e drop src dest) (xs.map (addFkeyOf e) ++ ys.map (addFkeyOf e))
      (endDb e drop src dest) := by
  have hnew : ∀ old, ∀ x ∈ (newFkeys src dest old).map (·.2), ∃ t,
      tab dest (x.tableSchema, x.tableName) = some t ∧ findCon t x.constraintName = some x ∧
      foreignKey x = true ∧ hasTable src x.tableSchema x.tableName = old ∧
      hasTableConstraint src x.tableSchema x.tableName x.constraintName = false := by
    intro old x hx
    rw [PgSpec.newFkeys_eq] at hx
    obtain ⟨t, h1, h2, h3⟩ := mem_constraintsOf hd hx
    simp only [Bool.and_eq_true, Bool.not_eq_true', beq_iff_eq] at h3
    have h5 := (tab_some h1).2
    injection h5 with h5 h6
    rw [h5, h6] at h3
    exact ⟨t, h1, h2, h3.2.1, h3.1, h3.2.2⟩
  have hin : ∀ x, x ∈ (newFkeys src dest false).map (·.2) ∨ x ∈ (newFkeys src dest true).map (·.2) ∨
      x ∈ (redone (diffEnv src dest drop) src dest).map (·.2) →
      (∃ t, tab dest (x.tableSchema, x.tableName) = some t) ∧
      ∃ u, (endDb e drop src dest).table (x.tableSchema, x.tableName) = some u ∧
        u.con x.constraintName = some (conOf .sqlserver e.cur x) ∧
        isF (conOf .sqlserver e.cur x) = true := by
    intro x h
    have hn : ∀ old, x ∈ (newFkeys src dest old).map (·.2) →
        (∃ t, tab dest (x.tableSchema, x.tableName) = some t) ∧
        ∃ u, (endDb e drop src dest).table (x.tableSchema, x.tableName) = some u ∧
          u.con x.constraintName = some (conOf .sqlserver e.cur x) ∧
          isF (conOf .sqlserver e.cur x) = true := by
      intro old h
      obtain ⟨t, h1, h2, h3, _⟩ := hnew old x h
      obtain ⟨u, h4, h5⟩ := end_dest (e := e) (drop := drop) (src := src) h1
      exact ⟨⟨t, h1⟩, u, h4, h5 _ x h2, by rw [isF_conOf, h3]⟩
    rcases h with h | h | h
    · exact hn _ h
    · exact hn _ h
    · obtain ⟨s, t, h1, h2, h3, h4, h5⟩ := redone_facts hcoll hs hd hc h
      exact ⟨⟨t, h2⟩, endTbl e drop s t, by rw [end_src h1, h2], h5, by rw [isF_conOf, h4]⟩
  have hxi : ∀ x ∈ xs, _ := fun x h => hin x (Or.inl (hx.mem_iff.1 h))
  have hyi : ∀ x ∈ ys, _ := fun x h => hin x (Or.inr (List.mem_append.1 (hy.mem_iff.1 h)))
  have hxk := fullName_map (cur := e.cur) hd fun x h => (hxi x h).1
  have hyk := fullName_map (cur := e.cur) hd fun x h => (hyi x h).1
  have hnk : ∀ old k n, (k, n) ∈ ((newFkeys src dest old).map (·.2)).map conKey →
      hasTable src k.1 k.2 = old ∧ lacks (dbOf e.cur e.coll src) k n = true := by
    intro old k n h
    obtain ⟨x, hx, he⟩ := List.mem_map.1 h
    obtain ⟨t, h1, h2, h3, h4, h5⟩ := hnew old x hx
    injection he with h6 h7
    subst h6 h7
    exact ⟨h4, by rw [lacks_src hs.ok, h5]; rfl⟩
  have hrk : ∀ k n, redo src dest drop k n = true → lacks (dbOf e.cur e.coll src) k n = false := by
    intro k n h
    obtain ⟨s, t, x, h1, h2, h3, _⟩ := (redo_iff hcoll hs hd hc).1 h
    rw [lacks_false]
    exact ⟨_, conOf .sqlserver e.cur x, by rw [srcDb_table, h1]; rfl, by
      show (findCon s n).map _ = _
      rw [h3]; rfl⟩
  have hxm : ∀ k n, (k, n) ∈ xs.map conKey ↔ (k, n) ∈ ((newFkeys src dest false).map (·.2)).map conKey :=
    fun k n => (hx.map conKey).mem_iff
  have hym : ∀ k n, (k, n) ∈ ys.map conKey ↔
      (k, n) ∈ ((newFkeys src dest true).map (·.2)).map conKey ∨ redo src dest drop k n = true := by
    intro k n
    rw [(hy.map conKey).mem_iff, List.map_append, List.mem_append, redone_key hcoll hs hd hc]
  have hxnd : (xs.map conKey).Nodup := by
    rw [(hx.map conKey).nodup_iff, PgSpec.newFkeys_eq]
    exact conKey_nodup hd _
  have hynd : (ys.map conKey).Nodup := by
    rw [(hy.map conKey).nodup_iff, List.map_append, List.nodup_append]
    refine ⟨?_, redone_keys_nodup hcoll hs hd hc, ?_⟩
    · rw [PgSpec.newFkeys_eq]
      exact conKey_nodup hd _
    · rintro ⟨k, n⟩ ha b hb rfl
      have h1 := (hnk true k n ha).2
      rw [hrk k n ((redone_key hcoll hs hd hc).1 hb)] at h1
      cases h1
  -- those of new tables
  have r1 := phase_addFkeys (N := N) hG (fun x : Constraint => fullName e.cur x.tableSchema x.tableName)
    (fun x => x.constraintName) (conOf .sqlserver e.cur) xs (fun k n => decide ((k, n) ∈ ys.map conKey))
    (by rw [hxk]; exact hxnd)
    (by
      intro x h
      obtain ⟨⟨t, h1⟩, h2⟩ := hxi x h
      rw [key_fullName (tab_schema_ne hd h1)]
      refine ⟨?_, h2⟩
      rw [decide_eq_false_iff_not, hym]
      have h3 := hnk false (x.tableSchema, x.tableName) x.constraintName
        ((hxm _ _).1 (List.mem_map.2 ⟨x, h, rfl⟩))
      rintro (h4 | h4)
      · have h5 := (hnk true _ _ h4).1
        rw [h3.1] at h5
        cases h5
      · rw [hrk _ _ h4] at h3
        cases h3.2)
  -- the other ones
  have r2 := phase_addFkeys (N := N) hG (fun x : Constraint => fullName e.cur x.tableSchema x.tableName)
    (fun x => x.constraintName) (conOf .sqlserver e.cur) ys (fun _ _ => false)
    (by rw [hyk]; exact hynd)
    (by
      intro x h
      obtain ⟨⟨t, h1⟩, h2⟩ := hyi x h
      rw [key_fullName (tab_schema_ne hd h1)]
      exact ⟨rfl, h2⟩)
  rw [PgSpec.cut_nothing, hyk] at r2
  simp only [Bool.false_or] at r2
  rw [hxk] at r1
  have hcut : stateB e drop src dest = (endDb e drop src dest).cut fun k n =>
      decide ((k, n) ∈ ys.map conKey) || decide ((k, n) ∈ xs.map conKey) := by
    refine cut_congr fun k u n c h1 h2 h3 => ?_
    rw [Bool.eq_iff_iff, Bool.or_eq_true, Bool.or_eq_true, decide_eq_true_iff, decide_eq_true_iff, hym, hxm]
    constructor
    · rintro (h4 | h4)
      · rw [lacks_src hs.ok, Bool.not_eq_true'] at h4
        rcases end_con h1 h2 with ⟨t, x, h7, h8, rfl⟩ | ⟨s, x, h7, h8, rfl⟩
        · rw [isF_conOf] at h3
          have e1 := (tab_some h7).2
          have e2 := (find_some h8).2
          subst e1 e2
          cases h9 : hasTable src t.tableSchema t.tableName with
          | false =>
            refine Or.inr ?_
            rw [PgSpec.newFkeys_eq, conKey_mem hd]
            exact ⟨t, x, h7, h8, by rw [h9, h3, h4]; rfl⟩
          | true =>
            refine Or.inl (Or.inl ?_)
            rw [PgSpec.newFkeys_eq, conKey_mem hd]
            exact ⟨t, x, h7, h8, by rw [h9, h3, h4]; rfl⟩
        · rw [hasTableConstraint_tab hs.ok, show tab src (k.1, k.2) = some s from h7] at h4
          dsimp only at h4
          rw [show (liveConstraints s).find? (fun c => c.constraintName == n) = some x from h8] at h4
          cases h4
      · exact Or.inl (Or.inr h4)
    · rintro ((h4 | h4) | h4)
      · exact Or.inl (hnk true k n h4).2
      · exact Or.inr h4
      · exact Or.inl (hnk false k n h4).2
  rw [hcut]
  exact runs_append r1 r2

end

/-- C67, SQL Server: the statements of a migration succeed one after the other, and the database
becomes what the migration is meant to achieve. -/
theorem ms_plan_converges_partial {e : Env} {drop : Bool} {src dest : Catalog} {N : Numbers}
    (hcoll : e.coll = src.defaultCollation) (hs : Described src) (hd : Described dest)
    (hc : Comparable e.cur e.coll drop src dest)
    (hS : Consistent (dbOf e.cur e.coll src)) (hG : Consistent (goalDb e.cur e.coll drop src dest))
    (hp : Passable e.cur e.coll drop src dest (dbOf e.cur e.coll src) (goalDb e.cur e.coll drop src dest))
    (hf : Findable N src dest (dbOf e.cur e.coll src) (goalDb e.cur e.coll drop src dest)) :
    ∃ fk db, mssqlFkeys (mssqlEvents src dest drop) = some fk ∧
      Runs N (dbOf e.cur e.coll src) (plan e (mssqlEvents src dest drop) fk) db ∧
      Reached e.cur e.coll drop src dest db := by
  obtain ⟨fk, h1, h2, h3, h4⟩ := groups_ms hs.ok hd.ok drop hc.apart
  have hG' := consistent_alike endDb_alike hG
  have hb := between_alike endDb_alike hp.names hp.indexNames
  refine ⟨fk, endDb e drop src dest, h1, ?_, endDb_reached hs hd hc⟩
  unfold plan
  rw [flatten_stmts, flatten_stmts, flatten_stmts, List.append_assoc]
  have r5 := run_createTables (N := N) hs hd hc hG' hb
  simp only [during_start hs hd hc] at r5
  exact runs_append (runs_append (runs_append (runs_append (runs_append (runs_append
    (run_dropFkeys hcoll hs hd hc h2) (run_dropSchemas hs hd hc hS hG'))
    (run_createSchemas hs hd _)) (run_dropTables hs hd hc hG'))
    r5) (run_alters hcoll hs hd hc hS hG hp hf)) (run_addFkeys hcoll hs hd hc hG' h3 h4)

end MsSpec
