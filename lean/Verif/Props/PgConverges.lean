import Verif.Lemmas.PgReached
import Verif.Props.PgFkeys

/-!
# A Postgres migration turns the one database into the other (C67)
-/

namespace PgSpec
open SqlSpec Sqddl DdlText PgText EngineSpec Sqddl.Postgres
open PgText (Act Stmt)
open CatalogSpec (keyConstraint foreignKey liveColumns liveConstraints liveIndexes hasColumn hasIndex
  hasConstraint commonTables TableOk liveTables liveSchemas hasTable hasSchema hasTableConstraint)

/-! ## Tables and constraints of catalogs -/

theorem tab_some {c : Catalog} {k : Key} {t : Table} (h : tab c k = some t) :
    t ∈ liveTables c ∧ (t.tableSchema, t.tableName) = k := EngineSpec.tab_some h

theorem tab_mem {c : Catalog} (hc : CatalogSpec.Ok c) {t : Table} (h : t ∈ liveTables c) :
    tab c (t.tableSchema, t.tableName) = some t := EngineSpec.tab_mem hc h

theorem hasTable_tab (c : Catalog) (s n : Str) : hasTable c s n = (tab c (s, n)).isSome :=
  EngineSpec.hasTable_tab c s n

theorem hasTableConstraint_tab {c : Catalog} (hc : CatalogSpec.Ok c) (s t n : Str) :
    hasTableConstraint c s t n = match tab c (s, t) with
      | none => false
      | some x => ((liveConstraints x).find? fun y => y.constraintName == n).isSome :=
  EngineSpec.hasTableConstraint_tab hc s t n

theorem mem_common_iff {src dest : Catalog} (hdest : CatalogSpec.Ok dest) {p : Table × Table} :
    p ∈ commonTables src dest ↔ ∃ k, tab src k = some p.1 ∧ tab dest k = some p.2 :=
  EngineSpec.mem_common_iff hdest

theorem table_schema_ne {c : Catalog} (hc : Described c) {t : Table} (h : t ∈ liveTables c) :
    t.tableSchema ≠ [] := by
  obtain ⟨s, hs, hi, ht, -⟩ := mem_liveTables.1 h
  rw [(hc.ok.ok s hs).schemaName t ht]
  exact hc.schemas s (List.mem_filter.2 ⟨hs, by simp [hi]⟩)

theorem tab_schema_ne {c : Catalog} (hc : Described c) {k : Key} {t : Table}
    (h : tab c k = some t) : k.1 ≠ [] := by
  obtain ⟨h1, rfl⟩ := tab_some h
  exact table_schema_ne hc h1

theorem mem_constraintsOf {c : Catalog} (hc : Described c) {p : Table → Constraint → Bool}
    {x : Constraint} (h : x ∈ constraintsOf c p) :
    ∃ t, tab c (x.tableSchema, x.tableName) = some t ∧ findCon t x.constraintName = some x ∧
      p t x = true := by
  obtain ⟨t, ht, hx⟩ := List.mem_flatMap.1 h
  obtain ⟨hx, hp⟩ := List.mem_filter.1 hx
  obtain ⟨e1, e2⟩ := hc.owned.constraints t ht x hx
  refine ⟨t, ?_, find?_self (nodup_constraints (liveTables_ok hc.ok ht)) hx, hp⟩
  rw [e1, e2]
  exact tab_mem hc.ok ht

theorem conKey_mem {c : Catalog} (hc : Described c) {p : Table → Constraint → Bool} {k : Key}
    {n : Str} : (k, n) ∈ (constraintsOf c p).map conKey ↔
      ∃ t x, tab c k = some t ∧ findCon t n = some x ∧ p t x = true := by
  constructor
  · intro h
    obtain ⟨x, hx, e⟩ := List.mem_map.1 h
    injection e with e1 e2
    subst e1 e2
    obtain ⟨t, h1, h2, h3⟩ := mem_constraintsOf hc hx
    exact ⟨t, x, h1, h2, h3⟩
  · rintro ⟨t, x, h1, h2, h3⟩
    obtain ⟨h4, rfl⟩ := tab_some h1
    obtain ⟨h5, rfl⟩ := find_some h2
    obtain ⟨e1, e2⟩ := hc.owned.constraints t h4 x h5
    refine List.mem_map.2 ⟨x, List.mem_flatMap.2 ⟨t, h4, List.mem_filter.2 ⟨h5, h3⟩⟩, ?_⟩
    rw [conKey, e1, e2]

theorem conKey_nodup {c : Catalog} (hc : Described c) (p : Table → Constraint → Bool) :
    ((constraintsOf c p).map conKey).Nodup := by
  rw [List.map_flatMap, List.flatMap_def, List.Nodup, List.pairwise_flatten]
  constructor
  · intro l hl
    obtain ⟨t, ht, rfl⟩ := List.mem_map.1 hl
    have h1 := nodup_filter (nodup_constraints (liveTables_ok hc.ok ht)) (p t)
    rw [List.pairwise_map]
    exact (List.pairwise_map.1 h1).imp fun h e => h (congrArg Prod.snd e)
  · rw [List.pairwise_map]
    have h1 := List.pairwise_map.1 (liveTables_nodup hc.ok)
    refine List.Pairwise.imp_of_mem ?_ h1
    rintro a b ha hb h x hx y hy rfl
    obtain ⟨x', hx', e⟩ := List.mem_map.1 hx
    obtain ⟨y', hy', e'⟩ := List.mem_map.1 hy
    have e1 := hc.owned.constraints a ha x' (List.mem_filter.1 hx').1
    have e2 := hc.owned.constraints b hb y' (List.mem_filter.1 hy').1
    apply h
    have e3 := congrArg Prod.fst (e.trans e'.symm)
    simp only [conKey, e1, e2] at e3
    exact e3

/-! ## The database that a migration leads to -/

/-- What the migration leads to. -/
def endDb (e : Env) (drop : Bool) (src dest : Catalog) : Db where
  schema s := hasSchema dest s || (!drop && hasSchema src s)
  table k :=
    match tab src k, tab dest k with
    | some s, some t => some (endTbl e drop s t)
    | some s, none => if drop then none else some (tblOf e.cur e.coll s)
    | none, t => t.map (tblOf e.cur e.coll)

section
variable {e : Env} {drop : Bool} {src dest : Catalog}

theorem srcDb_table (k : Key) :
    (dbOf e.cur e.coll src).table k = (tab src k).map (tblOf e.cur e.coll) := rfl

theorem end_src {k : Key} {s : Table} (h : tab src k = some s) :
    (endDb e drop src dest).table k = match tab dest k with
      | some t => some (endTbl e drop s t)
      | none => if drop then none else some (tblOf e.cur e.coll s) := by
  unfold endDb
  dsimp only
  rw [h]
  cases tab dest k <;> rfl

theorem end_new {k : Key} (h : tab src k = none) :
    (endDb e drop src dest).table k = (tab dest k).map (tblOf e.cur e.coll) := by
  unfold endDb
  dsimp only
  rw [h]

section
variable (hs : Described src) (hd : Described dest)
  (hc : Comparable e.cur e.coll (lowerThan e.version [12]) drop src dest)

include hs hd hc in
theorem pairOk {p : Table × Table} (hp : p ∈ commonTables src dest) :
    PairOk e.cur e.coll (lowerThan e.version [12]) drop p.1 p.2 where
  pair := hc.tables p hp
  src := liveTables_ok hs.ok (mem_commonTables hp).1
  dest := liveTables_ok hd.ok (mem_commonTables hp).2.1
  srcPrimary := hs.primary p.1 (mem_commonTables hp).1
  destPrimary := hd.primary p.2 (mem_commonTables hp).2.1
  srcNotNull := hs.notNull p.1 (mem_commonTables hp).1
  destNotNull := hd.notNull p.2 (mem_commonTables hp).2.1
  flags := hd.flags p.2 (mem_commonTables hp).2.1
  keyColumns := hd.keyColumns p.2 (mem_commonTables hp).2.1
  same := by
    obtain ⟨k, h1, h2⟩ := (mem_common_iff hd.ok).1 hp
    have e1 := (tab_some h2).2.trans (tab_some h1).2.symm
    exact ⟨congrArg Prod.fst e1, congrArg Prod.snd e1⟩
  constraints := hd.owned.constraints p.2 (mem_commonTables hp).2.1
  columns := hd.owned.columns p.2 (mem_commonTables hp).2.1
  srcIndexes := fun x hx => (hs.indexes p.1 (mem_commonTables hp).1 x hx).1
  destIndexes := hd.indexes p.2 (mem_commonTables hp).2.1

include hs hd hc in
theorem endDb_alike : Db.Alike (goalDb e.cur e.coll drop src dest) (endDb e drop src dest) := by
  refine ⟨rfl, fun k => ?_⟩
  unfold goalDb endDb
  dsimp only
  cases h1 : tab src k with
  | none =>
    cases tab dest k with
    | none => trivial
    | some t => exact ⟨fun _ => rfl, rfl, rfl⟩
  | some s =>
    cases h2 : tab dest k with
    | none =>
      cases drop with
      | true => trivial
      | false => exact ⟨fun _ => rfl, rfl, rfl⟩
    | some t => exact endTbl_alike (pairOk hs hd hc ((mem_common_iff hd.ok (p := (s, t))).2 ⟨k, h1, h2⟩))

include hs hd hc in
theorem endDb_reached : Reached e.cur e.coll drop src dest (endDb e drop src dest) where
  schema := rfl
  common := by
    intro p hp
    obtain ⟨k, h1, h2⟩ := (mem_common_iff hd.ok).1 hp
    have hk := (tab_some h2).2
    subst hk
    refine ⟨endTbl e drop p.1 p.2, ?_, endTbl_reached (pairOk hs hd hc hp)⟩
    rw [end_src h1, h2]
  other := by
    intro k hk
    unfold goalDb endDb
    dsimp only
    cases h1 : tab src k with
    | none => cases tab dest k <;> rfl
    | some s =>
      cases h2 : tab dest k with
      | none => rfl
      | some t =>
        exact absurd (tab_some h2).2 (hk (s, t) ((mem_common_iff hd.ok).2 ⟨k, h1, h2⟩))

theorem lacks_src {k : Key} {n : Str} (hs : CatalogSpec.Ok src) :
    lacks (dbOf e.cur e.coll src) k n = !hasTableConstraint src k.1 k.2 n := by
  unfold lacks
  rw [srcDb_table, hasTableConstraint_tab hs]
  cases tab src k with
  | none => rfl
  | some s =>
    simp only [Option.map_some, Option.bind_some, tblOf]
    cases (liveConstraints s).find? fun c => c.constraintName == n <;> rfl

theorem foreign_not_primary {x : Constraint} (h : foreignKey x = true) : primaryKey x = false := by
  unfold foreignKey at h
  unfold primaryKey
  rw [eq_of_beq h]
  decide

theorem lacks_goal {k : Key} {n : Str} (hd : CatalogSpec.Ok dest) {s : Table} {x : Constraint}
    (h1 : tab src k = some s) (h2 : findCon s n = some x) (h3 : foreignKey x = true) :
    lacks (endDb e drop src dest) k n = (drop && !hasTableConstraint dest k.1 k.2 n) := by
  unfold lacks
  rw [end_src h1, hasTableConstraint_tab hd]
  cases tab dest k with
  | none =>
    cases drop with
    | true => rfl
    | false => simp [tblOf, h2]
  | some t =>
    show (goalCon e.cur drop s t n).isNone = _
    unfold goalCon
    rw [show (liveConstraints s).find? (fun c => c.constraintName == n) = some x from h2]
    dsimp only
    rw [foreign_not_primary h3]
    cases (liveConstraints t).find? fun c => c.constraintName == n <;> cases drop <;> rfl

theorem end_con {k : Key} {n : Str} {u : Tbl} {c : Con}
    (h1 : (endDb e drop src dest).table k = some u) (h2 : u.con n = some c) :
    (∃ t x, tab dest k = some t ∧ findCon t n = some x ∧ c = conOf .postgres e.cur x) ∨
    (∃ s x, tab src k = some s ∧ findCon s n = some x ∧ c = conOf .postgres e.cur x) := by
  cases e1 : tab src k with
  | none =>
    rw [end_new e1] at h1
    obtain ⟨t, h3, rfl⟩ := Option.map_eq_some_iff.1 h1
    obtain ⟨x, h4, rfl⟩ := Option.map_eq_some_iff.1 h2
    exact Or.inl ⟨t, x, h3, h4, rfl⟩
  | some s =>
    rw [end_src e1] at h1
    cases e2 : tab dest k with
    | none =>
      rw [e2] at h1
      dsimp only at h1
      split at h1
      · cases h1
      · injection h1 with h1
        subst h1
        obtain ⟨x, h4, rfl⟩ := Option.map_eq_some_iff.1 h2
        exact Or.inr ⟨s, x, rfl, h4, rfl⟩
    | some t =>
      rw [e2] at h1
      injection h1 with h1
      subst h1
      have h2 : goalCon e.cur drop s t n = some c := h2
      unfold goalCon at h2
      split at h2
      · rename_i x hx
        injection h2 with h2
        exact Or.inl ⟨t, x, rfl, hx, h2.symm⟩
      · split at h2
        · cases h2
        · rename_i x hx
          split at h2
          · cases h2
          · injection h2 with h2
            exact Or.inr ⟨s, x, rfl, hx, h2.symm⟩

theorem end_dest {k : Key} {t : Table} (h1 : tab dest k = some t) :
    ∃ u, (endDb e drop src dest).table k = some u ∧
      ∀ n x, findCon t n = some x → u.con n = some (conOf .postgres e.cur x) := by
  cases e1 : tab src k with
  | none =>
    rw [end_new e1, h1]
    refine ⟨_, rfl, fun n x h => ?_⟩
    show (findCon t n).map _ = _
    rw [h]; rfl
  | some s =>
    rw [end_src e1, h1]
    refine ⟨_, rfl, fun n x h => ?_⟩
    show goalCon e.cur drop s t n = _
    unfold goalCon
    rw [show (liveConstraints t).find? (fun c => c.constraintName == n) = some x from h]

include hs hd hc in
theorem end_sameFkeys : SameFkeys (dbOf e.cur e.coll src) (endDb e drop src dest) := by
  intro k s t n c d h1 h2 h3 h4 _
  rw [srcDb_table] at h1
  obtain ⟨s', e1, rfl⟩ := Option.map_eq_some_iff.1 h1
  obtain ⟨x, e2, rfl⟩ := Option.map_eq_some_iff.1 h3
  rcases end_con h2 h4 with ⟨t', y, e3, e4, rfl⟩ | ⟨s'', y, e3, e4, rfl⟩
  · have hp := pairOk hs hd hc (p := (s', t')) ((mem_common_iff hd.ok).2 ⟨k, e1, e3⟩)
    exact (same_con hp e2 e4).kind
  · rw [e1] at e3
    injection e3 with e3
    subst e3
    have e5 := e2.symm.trans e4
    injection e5 with e5
    rw [e5]

end

/-! ## The parts of the migration -/

theorem pg_server : CatalogSpec.Server .postgres := by simp [CatalogSpec.Server]

theorem fullName_map {c : Catalog} (hc : Described c) {cur : Str} {xs : List Constraint}
    (h : ∀ x ∈ xs, ∃ t, tab c (x.tableSchema, x.tableName) = some t) :
    xs.map (fun x => (key (fullName cur x.tableSchema x.tableName), x.constraintName)) =
      xs.map conKey := by
  refine List.map_congr_left fun x hx => ?_
  obtain ⟨t, ht⟩ := h x hx
  rw [key_fullName (tab_schema_ne hc ht)]

theorem goneFkeys_eq : (goneFkeys src dest).map (·.2) = constraintsOf src fun t c =>
    foreignKey c && !hasTableConstraint dest t.tableSchema t.tableName c.constraintName := by
  unfold goneFkeys constraintsOf
  rw [List.map_flatMap]
  congr 1
  funext t
  rw [List.map_map]
  exact List.map_id' _

section
variable (hs : Described src) (hd : Described dest)
  (hc : Comparable e.cur e.coll (lowerThan e.version [12]) drop src dest)
  (hS : Consistent (dbOf e.cur e.coll src)) (hG : Consistent (endDb e drop src dest))
  (hp : Passable (dbOf e.cur e.coll src) (endDb e drop src dest))

include hs hd hc in
theorem run_dropFkeys :
    Runs (dbOf e.cur e.coll src) ((groupFkeys ((pgEvents src dest drop).filterMap Ev.dropFkey?)).flatMap
        fun g => groupAlter e g fun c => .dropConstraint true c.constraintName)
      ((dbOf e.cur e.coll src).cut (lacks (endDb e drop src dest))) := by
  have hperm := dropFkeys_pg hs.ok hd.ok drop
  let cs := (pgEvents src dest drop).filterMap Ev.dropFkey?
  have hmem : ∀ x, x ∈ cs ↔ drop = true ∧ x ∈ (goneFkeys src dest).map (·.2) := by
    intro x
    rw [hperm.mem_iff]
    cases drop <;> simp
  have hid : ∀ c ∈ cs, ∀ d ∈ cs, getTablesId c = getTablesId d →
      c.tableSchema = d.tableSchema ∧ c.tableName = d.tableName := by
    intro c hc' d hd'
    obtain ⟨h1, h2⟩ := (hmem c).1 hc'
    exact oneWay_id (fun f hf => (goneFkeys_owner hs.owned hf).2.2.2) (hc.goneWay h1) c h2 d
      ((hmem d).1 hd').2
  rw [groupAlter_flatten hid]
  have hx : ∀ x ∈ (groupFkeys cs).flatten, ∃ t, tab src (x.tableSchema, x.tableName) = some t ∧
      findCon t x.constraintName = some x ∧ foreignKey x = true := by
    intro x hx
    have h1 := ((hmem x).1 ((groupFkeys_perm cs).mem_iff.1 hx)).2
    rw [goneFkeys_eq] at h1
    obtain ⟨t, h2, h3, h4⟩ := mem_constraintsOf hs h1
    rw [Bool.and_eq_true] at h4
    exact ⟨t, h2, h3, h4.1⟩
  have hmap := fullName_map (cur := e.cur) hs fun x hx' => (hx x hx').imp fun _ h => h.1
  have hrun := phase_dropFkeys (S := dbOf e.cur e.coll src)
    (fun x : Constraint => fullName e.cur x.tableSchema x.tableName) (fun x => x.constraintName)
    (groupFkeys cs).flatten (fun _ _ => false) (by
      intro x hx'
      obtain ⟨t, h1, h2, h3⟩ := hx x hx'
      rw [key_fullName (tab_schema_ne hs h1)]
      refine ⟨tblOf e.cur e.coll t, ?_, ?_⟩
      · rw [srcDb_table, h1]; rfl
      · intro c hc'
        have hc' : (findCon t x.constraintName).map _ = some c := hc'
        rw [h2] at hc'
        cases hc'
        rw [isF_conOf, h3])
  rw [cut_nothing] at hrun
  have hcut : (dbOf e.cur e.coll src).cut (lacks (endDb e drop src dest)) =
      (dbOf e.cur e.coll src).cut fun k n => false ||
        decide ((k, n) ∈ (groupFkeys cs).flatten.map fun x =>
          (key (fullName e.cur x.tableSchema x.tableName), x.constraintName)) := by
    refine cut_congr fun k t n c h1 h2 h3 => ?_
    rw [srcDb_table] at h1
    obtain ⟨s, h4, rfl⟩ := Option.map_eq_some_iff.1 h1
    obtain ⟨x, h5, rfl⟩ := Option.map_eq_some_iff.1 h2
    rw [isF_conOf] at h3
    rw [lacks_goal hd.ok h4 h5 h3, hmap, Bool.false_or]
    rw [Bool.eq_iff_iff, decide_eq_true_iff, ((groupFkeys_perm cs).map conKey).mem_iff]
    have key1 : (k, n) ∈ cs.map conKey ↔ drop = true ∧ (k, n) ∈ ((goneFkeys src dest).map (·.2)).map conKey := by
      simp only [List.mem_map (f := conKey), hmem]
      constructor
      · rintro ⟨y, ⟨h6, h7⟩, h8⟩; exact ⟨h6, y, h7, h8⟩
      · rintro ⟨h6, y, h7, h8⟩; exact ⟨y, ⟨h6, h7⟩, h8⟩
    rw [key1, goneFkeys_eq, conKey_mem hs, Bool.and_eq_true]
    have e1 := (tab_some h4).2
    have e2 := (find_some h5).2
    subst e1 e2
    constructor
    · rintro ⟨h6, h7⟩
      exact ⟨h6, s, x, h4, h5, by rw [h3, h7]; rfl⟩
    · rintro ⟨h6, s', x', h7, h8, h9⟩
      rw [h4] at h7
      injection h7 with h7
      subst h7
      have h10 := h5.symm.trans h8
      injection h10 with h10
      subst h10
      rw [h3] at h9
      exact ⟨h6, h9⟩
  rw [hcut]
  exact hrun

theorem hasSchema_ne {c : Catalog} (hc : Described c) {n : Str} (h : hasSchema c n = true) :
    n ≠ [] := by
  obtain ⟨s, h1, rfl⟩ := List.mem_map.1 (hasSchema_iff.1 h)
  exact hc.schemas s h1

theorem mem_schema_names {c : Catalog} (hc : Described c) (p : Str → Bool) {n : Str} :
    n ∈ ((liveSchemas c).filter fun s => s.schemaName != [] && p s.schemaName).map (·.schemaName) ↔
      hasSchema c n = true ∧ p n = true := by
  simp only [List.mem_map, List.mem_filter, Bool.and_eq_true, bne_iff_ne]
  constructor
  · rintro ⟨s, ⟨h1, _, h2⟩, rfl⟩
    exact ⟨hasSchema_iff.2 (List.mem_map.2 ⟨s, h1, rfl⟩), h2⟩
  · rintro ⟨h1, h2⟩
    have h3 := hasSchema_ne hc h1
    obtain ⟨s, h4, rfl⟩ := List.mem_map.1 (hasSchema_iff.1 h1)
    exact ⟨s, ⟨h4, h3, h2⟩, rfl⟩

include hs hd hc hS hG in
theorem run_dropSchemas :
    Runs ((dbOf e.cur e.coll src).cut (lacks (endDb e drop src dest)))
      (((pgEvents src dest drop).filterMap Ev.dropSchema?).map fun s => .dropSchemaCascade s.schemaName)
      { schema := fun s => (dbOf e.cur e.coll src).schema s && (endDb e drop src dest).schema s
        table := fun k => if (endDb e drop src dest).schema k.1 then
          ((dbOf e.cur e.coll src).cut (lacks (endDb e drop src dest))).table k else none } := by
  have h1 : (pgEvents src dest drop).filterMap Ev.dropSchema? = _ :=
    dropSchemas_exact pg_server hs.ok hd.ok drop
  have h2 := phase_dropSchemas hS hG (end_sameFkeys hs hd hc)
    (((pgEvents src dest drop).filterMap Ev.dropSchema?).map (·.schemaName))
    (by
      rw [h1]
      cases drop with
      | false => exact List.nodup_nil
      | true => exact (liveSchemas_nodup hs.ok).sublist (List.filter_sublist.map _))
    (by
      intro n
      rw [h1]
      show _ ↔ hasSchema src n = true ∧ (hasSchema dest n || (!drop && hasSchema src n)) = false
      cases drop with
      | false =>
        cases hasSchema src n <;> simp
      | true =>
        rw [if_pos rfl, mem_schema_names hs fun n => !hasSchema dest n]
        simp)
  rw [List.map_map] at h2
  exact h2

include hs hd in
theorem run_createSchemas (tb : Key → Option Tbl) :
    Runs
      { schema := fun s => (dbOf e.cur e.coll src).schema s && (endDb e drop src dest).schema s
        table := tb }
      (((pgEvents src dest drop).filterMap Ev.createSchema?).map fun s => .base (.createSchema s))
      { schema := (endDb e drop src dest).schema, table := tb } := by
  have h1 : (pgEvents src dest drop).filterMap Ev.createSchema? = _ :=
    createSchemas_exact pg_server hs.ok hd.ok drop
  refine phase_createSchemas ((pgEvents src dest drop).filterMap Ev.createSchema?) ?_ ?_ tb
  · rw [h1]
    exact (liveSchemas_nodup hd.ok).sublist (List.filter_sublist.map _)
  · intro n
    rw [h1, mem_schema_names hd fun n => !hasSchema src n]
    show _ ↔ (hasSchema dest n || (!drop && hasSchema src n)) = true ∧ hasSchema src n = false
    cases hasSchema src n <;> simp

theorem nodup_dropTables (hs : CatalogSpec.Ok src) (hd : CatalogSpec.Ok dest) :
    (((pgEvents src dest drop).filterMap Ev.dropTable?).map fun t =>
      (t.tableSchema, t.tableName)).Nodup := by
  have h1 : (pgEvents src dest drop).filterMap Ev.dropTable? = _ :=
    dropTables_exact pg_server hs hd drop
  rw [h1]
  cases drop with
  | false => exact List.nodup_nil
  | true =>
    rw [if_pos rfl, List.map_flatMap, List.flatMap_def, List.Nodup, List.pairwise_flatten]
    constructor
    · intro l hl
      obtain ⟨t, ht, rfl⟩ := List.mem_map.1 hl
      exact (liveTables_nodup hs).sublist (List.filter_sublist.map _)
    · rw [List.pairwise_map]
      have h1 := List.pairwise_map.1 (liveSchemas_nodup hd)
      refine h1.imp ?_
      rintro a b h x hx y hy rfl
      obtain ⟨t, h2, e1⟩ := List.mem_map.1 hx
      obtain ⟨t', h3, e2⟩ := List.mem_map.1 hy
      have h4 := (List.mem_filter.1 h2).2
      have h5 := (List.mem_filter.1 h3).2
      simp only [Bool.and_eq_true, beq_iff_eq] at h4 h5
      have e3 := congrArg Prod.fst (e1.trans e2.symm)
      exact h (h4.1.symm.trans (e3.trans h5.1))

theorem fullName_tables {c : Catalog} (hc : Described c) {cur : Str} {xs : List Table}
    (h : ∀ x ∈ xs, x ∈ liveTables c) :
    xs.map (fun x => key (fullName cur x.tableSchema x.tableName)) =
      xs.map fun x => (x.tableSchema, x.tableName) :=
  List.map_congr_left fun x hx => key_fullName (table_schema_ne hc (h x hx))

include hs hd hc hG in
theorem run_dropTables :
    Runs
      { schema := (endDb e drop src dest).schema
        table := fun k => if (endDb e drop src dest).schema k.1 then
          ((dbOf e.cur e.coll src).cut (lacks (endDb e drop src dest))).table k else none }
      (((pgEvents src dest drop).filterMap Ev.dropTable?).map fun t =>
        .base (.dropTable (fullName e.cur t.tableSchema t.tableName)))
      { schema := (endDb e drop src dest).schema
        table := fun k => if ((endDb e drop src dest).table k).isSome then
          ((dbOf e.cur e.coll src).cut (lacks (endDb e drop src dest))).table k else none } := by
  have h1 : (pgEvents src dest drop).filterMap Ev.dropTable? = _ :=
    dropTables_exact pg_server hs.ok hd.ok drop
  have hmem : ∀ t, t ∈ (pgEvents src dest drop).filterMap Ev.dropTable? ↔ drop = true ∧
      t ∈ liveTables src ∧ hasSchema dest t.tableSchema = true ∧
        hasTable dest t.tableSchema t.tableName = false := by
    intro t
    rw [h1]
    cases drop with
    | false => simp
    | true => rw [if_pos rfl, mem_dropTables_iff]; simp
  have hmap := fullName_tables (cur := e.cur) hs fun t ht => ((hmem t).1 ht).2.1
  refine phase_dropTables hG (end_sameFkeys hs hd hc)
    ((pgEvents src dest drop).filterMap Ev.dropTable?)
    (fun t => fullName e.cur t.tableSchema t.tableName) ?_ ?_
  · rw [hmap]
    exact nodup_dropTables hs.ok hd.ok
  · intro k
    rw [hmap, srcDb_table]
    show _ ↔ _ ∧ _ ∧ (hasSchema dest k.1 || (!drop && hasSchema src k.1)) = true
    constructor
    · intro h
      obtain ⟨t, h2, rfl⟩ := List.mem_map.1 h
      obtain ⟨rfl, h3, h4, h5⟩ := (hmem t).1 h2
      rw [hasTable_tab, Option.isSome_eq_false_iff, Option.isNone_iff_eq_none] at h5
      have h6 := tab_mem hs.ok h3
      refine ⟨by rw [h6]; rfl, ?_, by rw [h4]; rfl⟩
      rw [end_src h6, h5]; rfl
    · rintro ⟨h2, h3, h4⟩
      cases e1 : tab src k with
      | none => rw [e1] at h2; cases h2
      | some s =>
        rw [end_src e1] at h3
        cases e2 : tab dest k with
        | some t => rw [e2] at h3; cases h3
        | none =>
          rw [e2] at h3
          cases drop with
          | false => cases h3
          | true =>
            obtain ⟨h5, rfl⟩ := tab_some e1
            refine List.mem_map.2 ⟨s, (hmem s).2 ⟨rfl, h5, by simpa using h4, ?_⟩, rfl⟩
            rw [hasTable_tab, e2]; rfl

theorem tableConstraints_eq (t : Table) :
    tableConstraints .postgres true t = (liveConstraints t).filter fun c => !foreignKey c := by
  unfold tableConstraints foreignKey
  refine List.filter_congr fun c _ => ?_
  rw [if_neg (by decide), if_pos rfl]
  rw [show FOREIGN_KEY = b!"FOREIGN KEY" from rfl]
  by_cases e : c.constraintType = b!"FOREIGN KEY" <;> simp [e]

include hs hd hc hG hp in
theorem run_createTables :
    Runs
      { schema := (endDb e drop src dest).schema
        table := fun k => if ((endDb e drop src dest).table k).isSome then
          ((dbOf e.cur e.coll src).cut (lacks (endDb e drop src dest))).table k else none }
      (((pgEvents src dest drop).filterMap Ev.createTable?).flatMap (createOf e))
      { schema := (endDb e drop src dest).schema
        table := fun k => if ((dbOf e.cur e.coll src).table k).isSome then
          (if ((endDb e drop src dest).table k).isSome then
            ((dbOf e.cur e.coll src).cut (lacks (endDb e drop src dest))).table k else none)
          else ((endDb e drop src dest).cut (lacks (dbOf e.cur e.coll src))).table k } := by
  have h1 : (pgEvents src dest drop).filterMap Ev.createTable? = _ :=
    createTables_exact pg_server hs.ok hd.ok drop
  have hmem : ∀ t, t ∈ (pgEvents src dest drop).filterMap Ev.createTable? ↔ t ∈ liveTables dest ∧
      tab src (t.tableSchema, t.tableName) = none := by
    intro t
    rw [h1, List.mem_filter, hasTable_tab]
    simp
  have hmap := fullName_tables (cur := e.cur) hd fun t ht => ((hmem t).1 ht).1
  have hrun := phase_createTables hG hp (end_sameFkeys hs hd hc)
    ((pgEvents src dest drop).filterMap Ev.createTable?)
    (fun t => fullName e.cur t.tableSchema t.tableName)
    (fun t => (liveColumns t).map (colOf .postgres e.coll false))
    (fun t => (tableConstraints .postgres true t).map (conOf .postgres e.cur))
    (fun t => t.indexes.map fun x => (idxOf .postgres e.cur false false x).resolve e.cur)
    (by
      rw [hmap, h1]
      exact (liveTables_nodup hd.ok).sublist (List.filter_sublist.map _))
    (by
      intro k
      rw [hmap, srcDb_table]
      constructor
      · intro h
        obtain ⟨t, h2, rfl⟩ := List.mem_map.1 h
        obtain ⟨h3, h4⟩ := (hmem t).1 h2
        rw [end_new h4, tab_mem hd.ok h3, h4]
        exact ⟨rfl, rfl⟩
      · rintro ⟨h2, h3⟩
        have h4 : tab src k = none := by simpa using h3
        rw [end_new h4] at h2
        cases e : tab dest k with
        | none => rw [e] at h2; cases h2
        | some t =>
          obtain ⟨h5, rfl⟩ := tab_some e
          exact List.mem_map.2 ⟨t, (hmem t).2 ⟨h5, h4⟩, rfl⟩)
    (by
      intro t ht u hu
      obtain ⟨h2, h3⟩ := (hmem t).1 ht
      rw [key_fullName (table_schema_ne hd h2), end_new h3, tab_mem hd.ok h2] at hu
      injection hu with hu
      subst hu
      have hok := liveTables_ok hd.ok h2
      obtain ⟨hcr1, hcr2⟩ := hc.created t h2 (by rw [hasTable_tab, h3]; rfl)
      have hlive : liveIndexes t = t.indexes :=
        List.filter_eq_self.2 fun x hx => by rw [hcr1 x hx]; rfl
      have hname : ∀ x ∈ (liveConstraints t).filter fun c => !foreignKey c,
          (conOf .postgres e.cur x).name.getD [] = x.constraintName := by
        intro x hx
        rw [conOf_name (named hok (List.mem_filter.1 hx).1)]; rfl
      refine ⟨?_, ?_, ?_, ?_, ?_, ?_, ?_, ?_, ?_, ?_⟩
      · rw [List.map_map]
        exact nodup_columns hok
      · intro c hc'
        obtain ⟨y, hy, rfl⟩ := List.mem_map.1 hc'
        exact hcr2 y hy
      · funext n
        rw [puts_map (nm := fun x => x.columnName) (colOf .postgres e.coll false) (fun _ _ => rfl)]
        show _ = Option.map _ _
        cases (liveColumns t).find? fun y => y.columnName == n <;> rfl
      · rw [List.map_map, tableConstraints_eq]
        rw [List.map_congr_left (g := fun x => x.constraintName) hname]
        exact nodup_filter (nodup_constraints hok) _
      · intro c hc'
        rw [tableConstraints_eq] at hc'
        obtain ⟨x, hx, rfl⟩ := List.mem_map.1 hc'
        obtain ⟨hx1, hx2⟩ := List.mem_filter.1 hx
        refine ⟨?_, ?_⟩
        · rw [hname x hx]
          show ((liveConstraints t).find? fun y => y.constraintName == x.constraintName).map _ = _
          rw [show (liveConstraints t).find? (fun y => y.constraintName == x.constraintName) = some x from
            find?_self (k := fun c : Constraint => c.constraintName) (nodup_constraints hok) hx1]
          rfl
        · rw [isF_conOf]
          simpa using hx2
      · rw [tableConstraints_eq]
        funext n
        rw [puts_map (nm := fun x => x.constraintName) (conOf .postgres e.cur) hname,
          find_filter (nodup_constraints hok)]
        show _ = Option.filter _ (Option.map _ _)
        cases (liveConstraints t).find? fun y => y.constraintName == n with
        | none => rfl
        | some x =>
          simp only [Option.filter_some, Option.map_some, isF_conOf]
          cases foreignKey x <;> rfl
      · intro n c hn cs hk x hx d hd'
        obtain ⟨y, hy, rfl⟩ := Option.map_eq_some_iff.1 (show ((liveConstraints t).find? fun c =>
          c.constraintName == n).map (conOf .postgres e.cur) = some c from hn)
        obtain ⟨hyp, rfl⟩ := kind_primary.1 (show kindOf .postgres e.cur y = .primary cs from hk)
        obtain ⟨b, hb, rfl⟩ := Option.map_eq_some_iff.1 (show ((liveColumns t).find? fun c =>
          c.columnName == x).map (colOf .postgres e.coll false) = some d from hd')
        have := hd.notNull t h2 y (find_some hy).1 hyp b (find_some hb).1 ((find_some hb).2 ▸ hx)
        show (b.isNotNull && !computed .postgres b) = true
        rw [this]; rfl
      · rw [List.map_map]
        exact hok.indexes
      · intro y hy
        obtain ⟨x, hx, rfl⟩ := List.mem_map.1 hy
        obtain ⟨e1, e2⟩ := hd.indexes t h2 x hx
        refine ⟨?_, fullName e.cur t.tableSchema t.tableName, ?_, ?_⟩
        · have := find?_self (xs := liveIndexes t) (nodup_indexes hok) (hlive ▸ hx)
          show Option.map _ ((liveIndexes t).find? fun z => z.indexName == x.indexName) = _
          rw [this]
          rfl
        · have hne := table_schema_ne hd h2
          simp only [Idx.resolve, idxOf, fullName, e1, e2]
          by_cases e3 : t.tableSchema = e.cur
          · simp [e3, full]
          · simp [hne, e3, full]
        · rfl
      · funext n
        rw [List.map_map, puts_map (nm := fun x : Index => x.indexName) (mn := fun y : Idx => y.name)
          (plainIdx ∘ fun x => Idx.resolve e.cur (idxOf .postgres e.cur false false x)) (fun _ _ => rfl),
          ← hlive]
        show _ = Option.map _ _
        cases (liveIndexes t).find? fun y => y.indexName == n <;> rfl)
  have e1 : (((pgEvents src dest drop).filterMap Ev.createTable?).flatMap (createOf e)) =
      ((pgEvents src dest drop).filterMap Ev.createTable?).flatMap fun x =>
        .base (.createTable (fullName e.cur x.tableSchema x.tableName)
          (((liveColumns x).map (colOf .postgres e.coll false)).map .col ++
            ((tableConstraints .postgres true x).map (conOf .postgres e.cur)).map .con)) ::
          (x.indexes.map fun x => (idxOf .postgres e.cur false false x).resolve e.cur).map
            fun y => .base (.createIndex y) := by
    congr 1
    funext t
    rw [List.map_map, List.map_map, List.map_map]
    rfl
  rw [e1]
  exact hrun

include hs hd hc hS hG hp in
theorem run_alters (hv : e.version = src.versionNums) (hcoll : e.coll = src.defaultCollation) :
    Runs
      { schema := (endDb e drop src dest).schema
        table := fun k => if ((dbOf e.cur e.coll src).table k).isSome then
          (if ((endDb e drop src dest).table k).isSome then
            ((dbOf e.cur e.coll src).cut (lacks (endDb e drop src dest))).table k else none)
          else ((endDb e drop src dest).cut (lacks (dbOf e.cur e.coll src))).table k }
      (((pgEvents src dest drop).filterMap Ev.alter?).flatMap (Postgres.alterOf e))
      ((endDb e drop src dest).cut (lacks (dbOf e.cur e.coll src))) := by
  have hmem : ∀ a ∈ (pgEvents src dest drop).filterMap Ev.alter?, ∃ p ∈ commonTables src dest,
      a = pgAlterTable (diffEnv src dest drop) p.1 p.2 := fun a ha =>
    mem_alters pg_server hs.ok hd.ok ha
  have hne : ∀ p ∈ commonTables src dest, p.2.tableSchema ≠ [] := fun p hp =>
    table_schema_ne hd (mem_commonTables hp).2.1
  have hmap : ((pgEvents src dest drop).filterMap Ev.alter?).map (fun a =>
      key (fullName e.cur a.destTable.tableSchema a.destTable.tableName)) =
      ((pgEvents src dest drop).filterMap Ev.alter?).map fun a =>
        (a.destTable.tableSchema, a.destTable.tableName) := by
    refine List.map_congr_left fun a ha => ?_
    obtain ⟨p, hp, rfl⟩ := hmem a ha
    exact key_fullName (hne p hp)
  have hch : ∀ p ∈ commonTables src dest, Changes e drop p.1 p.2
      (pgAlterTable (diffEnv src dest drop) p.1 p.2) := fun p hp =>
    changes hs.ok hd.ok e hv hcoll drop hp (hs.primary p.1 (mem_commonTables hp).1)
      (liveTables_ok hs.ok (mem_commonTables hp).1)
  refine phase_alter (end_sameFkeys hs hd hc) ((pgEvents src dest drop).filterMap Ev.alter?)
    (fun a => fullName e.cur a.destTable.tableSchema a.destTable.tableName)
    (Postgres.alterOf e) ?_ ?_ ?_
  · rw [hmap]
    exact alters_once hs.ok hd.ok drop pg_server
  · intro a ha
    obtain ⟨p, hp', rfl⟩ := hmem a ha
    obtain ⟨k, h1, h2⟩ := (mem_common_iff hd.ok).1 hp'
    have h3 := (tab_some h2).2
    have ek : key (fullName e.cur p.2.tableSchema p.2.tableName) = k := by
      rw [key_fullName (hne p hp'), h3]
    have hS1 : (dbOf e.cur e.coll src).table k = some (tblOf e.cur e.coll p.1) := by
      rw [srcDb_table, h1]; rfl
    have hG1 : (endDb e drop src dest).table k = some (endTbl e drop p.1 p.2) := by
      rw [end_src h1, h2]
    refine ⟨tblOf e.cur e.coll p.1, endTbl e drop p.1 p.2, ?_, ?_, ?_⟩
    · show (dbOf e.cur e.coll src).table (key (fullName e.cur p.2.tableSchema p.2.tableName)) = _
      rw [ek, hS1]
    · show (endDb e drop src dest).table (key (fullName e.cur p.2.tableSchema p.2.tableName)) = _
      rw [ek, hG1]
    · intro db hm
      show Runs (db.withTable (key (fullName e.cur p.2.tableSchema p.2.tableName))
          (Tbl.cut (lacks _ (key (fullName e.cur p.2.tableSchema p.2.tableName))) _)) _
        (db.withTable (key (fullName e.cur p.2.tableSchema p.2.tableName))
          (Tbl.cut (lacks _ (key (fullName e.cur p.2.tableSchema p.2.tableName))) _))
      rw [ek]
      exact runs_alter hS hG hp (end_sameFkeys hs hd hc) hm (pairOk hs hd hc hp') hS1 hG1 ek (hch p hp')
  · intro k s t h1 h2 h3
    rw [srcDb_table] at h1
    obtain ⟨s', h4, rfl⟩ := Option.map_eq_some_iff.1 h1
    have hS1 : (dbOf e.cur e.coll src).table k = some (tblOf e.cur e.coll s') := by
      rw [srcDb_table, h4]; rfl
    have hG1 := h2
    rw [end_src h4] at h2
    cases h5 : tab dest k with
    | none =>
      -- a table that is kept
      rw [h5] at h2
      cases drop with
      | true => cases h2
      | false =>
        injection h2 with h2
        subst h2
        refine Tbl.ext rfl ?_ rfl
        funext n
        show Option.filter _ (Option.map _ (findCon s' n)) = Option.filter _ (Option.map _ (findCon s' n))
        cases h6 : findCon s' n with
        | none => rfl
        | some x =>
          have h7 : lacks (endDb e false src dest) k n = false := by
            rw [lacks_false]
            exact ⟨_, _, hG1, by
              show (findCon s' n).map _ = _
              rw [h6]; rfl⟩
          have h8 : lacks (dbOf e.cur e.coll src) k n = false := by
            rw [lacks_false]
            exact ⟨_, _, hS1, by
              show (findCon s' n).map _ = _
              rw [h6]; rfl⟩
          rw [h7, h8]
    | some t' =>
      rw [h5] at h2
      injection h2 with h2
      subst h2
      have hp' : (s', t') ∈ commonTables src dest := (mem_common_iff hd.ok).2 ⟨k, h4, h5⟩
      have hw : (pgAlterTable (diffEnv src dest drop) s' t').worthKeeping = false := by
        cases h6 : (pgAlterTable (diffEnv src dest drop) s' t').worthKeeping with
        | false => rfl
        | true =>
          refine absurd ?_ h3
          rw [hmap]
          have h7 : (pgEvents src dest drop).filterMap Ev.alter? = _ := alters_eq pg_server hs.ok hd.ok drop
          rw [h7]
          refine List.mem_map.2 ⟨pgAlterTable (diffEnv src dest drop) s' t',
            List.mem_flatMap.2 ⟨(s', t'), hp', ?_⟩, (tab_some h5).2⟩
          show _ ∈ if (pgAlterTable (diffEnv src dest drop) s' t').worthKeeping = true then _ else _
          rw [if_pos h6]
          exact List.mem_singleton.2 rfl
      exact alter_nothing (pairOk hs hd hc hp') hS1 hG1 (hch _ hp') hw

/-- The new foreign keys of one kind of tables, as they are in the lists of constraints. -/
theorem newFkeys_eq (old : Bool) : (newFkeys src dest old).map (·.2) = constraintsOf dest fun t c =>
    (hasTable src t.tableSchema t.tableName == old) &&
    (foreignKey c && !hasTableConstraint src t.tableSchema t.tableName c.constraintName) := by
  unfold newFkeys constraintsOf
  rw [List.map_flatMap, flatMap_filter_ite]
  congr 1
  funext t
  rw [List.map_map]
  by_cases h : (hasTable src t.tableSchema t.tableName == old) = true
  · rw [if_pos h]
    refine (List.map_id' _).trans (List.filter_congr fun c _ => ?_)
    dsimp only
    rw [h, Bool.true_and]
  · rw [if_neg h, Bool.not_eq_true] at *
    refine (List.filter_eq_nil_iff.2 fun c _ => ?_).symm
    dsimp only
    rw [h, Bool.false_and]
    exact Bool.false_ne_true

include hs hd hc hG in
theorem run_addFkeys :
    Runs ((endDb e drop src dest).cut (lacks (dbOf e.cur e.coll src)))
      ((groupFkeys ((pgEvents src dest drop).filterMap Ev.addFastFkey?)).flatMap (fun g =>
        groupAlter e g fun c => .addConstraint (conOf .postgres e.cur c)) ++
      (groupFkeys ((pgEvents src dest drop).filterMap Ev.addFkey?)).flatMap fun g =>
        (groupAlter e g fun c => .addConstraint (withValid true (conOf .postgres e.cur c))) ++
        groupAlter e g fun c => .validate c.constraintName)
      (endDb e drop src dest) := by
  rw [addFastFkeys_pg hs.ok hd.ok, addFkeys_pg hs.ok hd.ok]
  let nm : Constraint → DdlText.Name := fun c => fullName e.cur c.tableSchema c.tableName
  let cn : Constraint → Con := fun c => conOf .postgres e.cur c
  let F : Bool → List Constraint := fun old => (newFkeys src dest old).map (·.2)
  have hid : ∀ old, ∀ c ∈ F old, ∀ d ∈ F old, getTablesId c = getTablesId d →
      c.tableSchema = d.tableSchema ∧ c.tableName = d.tableName := fun old =>
    oneWay_id (fun f hf => (newFkeys_owner hd.owned hf).2.2.2) (hc.newWay old)
  have hx : ∀ old, ∀ x ∈ F old, ∃ t, tab dest (x.tableSchema, x.tableName) = some t ∧
      findCon t x.constraintName = some x ∧ foreignKey x = true ∧
      (hasTable src t.tableSchema t.tableName == old) = true ∧
      hasTableConstraint src t.tableSchema t.tableName x.constraintName = false := by
    intro old x hx
    have hx : x ∈ (newFkeys src dest old).map (·.2) := hx
    rw [newFkeys_eq] at hx
    obtain ⟨t, h1, h2, h3⟩ := mem_constraintsOf hd hx
    simp only [Bool.and_eq_true, Bool.not_eq_true'] at h3
    exact ⟨t, h1, h2, h3.2.1, h3.1, h3.2.2⟩
  have hname : ∀ old, ∀ x ∈ F old, (cn x).name.getD [] = x.constraintName := by
    intro old x hx'
    obtain ⟨t, h1, h2, _⟩ := hx old x hx'
    show (conOf .postgres e.cur x).name.getD [] = _
    rw [conOf_name (named (liveTables_ok hd.ok (tab_some h1).1) (find_some h2).1)]; rfl
  have hvalid : ∀ old, ∀ x ∈ F old, (cn x).notValid = false := by
    intro old x hx'
    obtain ⟨f, hf, rfl⟩ := List.mem_map.1 hx'
    have h0 := hc.valid old f hf
    show (conOf .postgres e.cur f.2).notValid = false
    simp [conOf, h0]
  have hin : ∀ old, InDb nm cn (endDb e drop src dest) (F old) := by
    intro old x hx'
    obtain ⟨t, h1, h2, h3, _⟩ := hx old x hx'
    refine ⟨by show isF (conOf .postgres e.cur x) = true; rw [isF_conOf, h3], hvalid old x hx', ?_⟩
    rw [hname old x hx']
    show ∃ t, (endDb e drop src dest).table (key (fullName e.cur x.tableSchema x.tableName)) = some t ∧ _
    rw [key_fullName (tab_schema_ne hd h1)]
    obtain ⟨u, h4, h5⟩ := end_dest (e := e) (drop := drop) (src := src) h1
    exact ⟨u, h4, h5 _ x h2⟩
  have hkeys : ∀ old, ∀ xs : List Constraint, (∀ x ∈ xs, x ∈ F old) →
      keysOf nm cn xs = xs.map conKey := by
    intro old xs hxs
    refine List.map_congr_left fun x hx' => ?_
    obtain ⟨t, h1, _⟩ := hx old x (hxs x hx')
    show (key (fullName e.cur x.tableSchema x.tableName), (cn x).name.getD []) = _
    rw [key_fullName (tab_schema_ne hd h1), hname old x (hxs x hx')]
  have hgr : ∀ old, ∀ x ∈ (groupFkeys (F old)).flatten, x ∈ F old := fun old x hx' =>
    (groupFkeys_perm (F old)).mem_iff.1 hx'
  have hmem : ∀ old k n, (k, n) ∈ keysOf nm cn (groupFkeys (F old)).flatten ↔
      ∃ t x, tab dest k = some t ∧ findCon t n = some x ∧
        ((hasTable src t.tableSchema t.tableName == old) && (foreignKey x &&
          !hasTableConstraint src t.tableSchema t.tableName x.constraintName)) = true := by
    intro old k n
    rw [hkeys old _ (hgr old), ((groupFkeys_perm (F old)).map conKey).mem_iff]
    show (k, n) ∈ ((newFkeys src dest old).map (·.2)).map conKey ↔ _
    rw [newFkeys_eq, conKey_mem hd]
  have hnd : ∀ old, (keysOf nm cn (groupFkeys (F old)).flatten).Nodup := by
    intro old
    rw [hkeys old _ (hgr old), ((groupFkeys_perm (F old)).map conKey).nodup_iff]
    show (((newFkeys src dest old).map (·.2)).map conKey).Nodup
    rw [newFkeys_eq]
    exact conKey_nodup hd _
  have hlack : ∀ old, ∀ y ∈ keysOf nm cn (groupFkeys (F old)).flatten,
      lacks (dbOf e.cur e.coll src) y.1 y.2 = true := by
    rintro old ⟨k, n⟩ hy
    obtain ⟨t, x, h1, h2, h3⟩ := (hmem old k n).1 hy
    have e1 := (tab_some h1).2
    have e2 := (find_some h2).2
    subst e1 e2
    simp only [Bool.and_eq_true] at h3
    rw [lacks_src hs.ok]
    exact h3.2.2
  -- those of new tables
  have r1 := runs_addFkeys hG nm cn false (groupFkeys (F false)).flatten
    (lacks (dbOf e.cur e.coll src)) (fun _ _ => false) (fun x hx' => hin false x (hgr false x hx'))
    (hnd false) (fun y hy => ⟨hlack false y hy, rfl⟩)
  simp only [Bool.false_and, Bool.or_false] at r1
  rw [stage_cut, stage_cut] at r1
  -- those of existing tables
  have r2 := runs_groups hG nm cn (groupFkeys (F true))
    (fun k n => lacks (dbOf e.cur e.coll src) k n &&
      !decide ((k, n) ∈ keysOf nm cn (groupFkeys (F false)).flatten))
    (fun x hx' => hin true x (hgr true x hx')) (hnd true) (by
      rintro ⟨k, n⟩ hy
      rw [Bool.and_eq_true, Bool.not_eq_true', decide_eq_false_iff_not]
      refine ⟨hlack true _ hy, fun hy' => ?_⟩
      obtain ⟨t, x, h1, h2, h3⟩ := (hmem true k n).1 hy
      obtain ⟨t', x', h1', h2', h3'⟩ := (hmem false k n).1 hy'
      rw [h1] at h1'
      cases h1'
      simp only [Bool.and_eq_true, beq_iff_eq] at h3 h3'
      rw [h3.1] at h3'
      cases h3'.1)
  have hend : (endDb e drop src dest).cut (fun k n => (lacks (dbOf e.cur e.coll src) k n &&
        !decide ((k, n) ∈ keysOf nm cn (groupFkeys (F false)).flatten)) &&
        !decide ((k, n) ∈ keysOf nm cn (groupFkeys (F true)).flatten)) = endDb e drop src dest := by
    refine Eq.trans (cut_congr (q := fun _ _ => false) ?_) (cut_nothing _)
    intro k u n c h1 h2 h3
    rw [Bool.eq_false_iff]
    intro h4
    simp only [Bool.and_eq_true, Bool.not_eq_true', decide_eq_false_iff_not] at h4
    obtain ⟨⟨h4, h5⟩, h6⟩ := h4
    rw [lacks_src hs.ok, Bool.not_eq_true'] at h4
    rcases end_con h1 h2 with ⟨t, x, h7, h8, rfl⟩ | ⟨s, x, h7, h8, rfl⟩
    · rw [isF_conOf] at h3
      have e1 := (tab_some h7).2
      have e2 := (find_some h8).2
      subst e1 e2
      cases h9 : hasTable src t.tableSchema t.tableName with
      | false => exact h5 ((hmem false _ _).2 ⟨t, x, h7, h8, by rw [h9, h3, h4]; rfl⟩)
      | true => exact h6 ((hmem true _ _).2 ⟨t, x, h7, h8, by rw [h9, h3, h4]; rfl⟩)
    · rw [hasTableConstraint_tab hs.ok, show tab src (k.1, k.2) = some s from h7] at h4
      dsimp only at h4
      rw [show (liveConstraints s).find? (fun c => c.constraintName == n) = some x from h8] at h4
      cases h4
  rw [hend] at r2
  -- the statements
  have t1 : (groupFkeys (F false)).flatMap (fun g => groupAlter e g fun c =>
      .addConstraint (conOf .postgres e.cur c)) = (groupFkeys (F false)).flatten.map fun x =>
        .alter (nm x) [.addConstraint { cn x with notValid := false }] := by
    rw [groupAlter_flatten (hid false)]
    refine List.map_congr_left fun x hx' => ?_
    have h1 := hvalid false x (hgr false x hx')
    show PgText.Stmt.alter (nm x) [.addConstraint (cn x)] = _
    rw [show ({ cn x with notValid := false } : Con) = cn x from by rw [← h1]]
  have t2 : (groupFkeys (F true)).flatMap (fun g => (groupAlter e g fun c =>
      .addConstraint (withValid true (conOf .postgres e.cur c))) ++
      groupAlter e g fun c => .validate c.constraintName) =
      (groupFkeys (F true)).flatMap fun g =>
        (g.map fun x => .alter (nm x) [.addConstraint { cn x with notValid := true }]) ++
        g.map fun x => .alter (nm x) [.validate ((cn x).name.getD [])] := by
    rw [List.flatMap_def, List.flatMap_def]
    congr 1
    refine List.map_congr_left fun g hg => ?_
    have hf := firstFkey_mem (groupFkeys_ne_nil hg)
    have hone : ∀ c ∈ g, fullName e.cur (firstFkey g).tableSchema (firstFkey g).tableName = nm c := by
      intro c hc'
      obtain ⟨h1, h2⟩ := hid true _ (groupFkeys_mem hg hf) c (groupFkeys_mem hg hc')
        (groupFkeys_id hg hf hc')
      show _ = fullName e.cur c.tableSchema c.tableName
      rw [h1, h2]
    congr 1
    · refine List.map_congr_left fun c hc' => ?_
      show PgText.Stmt.alter (fullName e.cur (firstFkey g).tableSchema (firstFkey g).tableName) _ = _
      rw [hone c hc']
      rfl
    · refine List.map_congr_left fun c hc' => ?_
      show PgText.Stmt.alter (fullName e.cur (firstFkey g).tableSchema (firstFkey g).tableName) _ = _
      rw [hone c hc', hname true c (groupFkeys_mem hg hc')]
  show Runs _ ((groupFkeys (F false)).flatMap _ ++ (groupFkeys (F true)).flatMap _) _
  rw [t1, t2]
  exact runs_append r1 r2

end

/-- C67, Postgres: the statements of a migration succeed one after the other, and the database
becomes what the migration is meant to achieve. -/
theorem pg_plan_converges_partial (hv : e.version = src.versionNums)
    (hcoll : e.coll = src.defaultCollation) (hs : Described src) (hd : Described dest)
    (hc : Comparable e.cur e.coll (lowerThan e.version [12]) drop src dest)
    (hS : Consistent (dbOf e.cur e.coll src)) (hG : Consistent (goalDb e.cur e.coll drop src dest))
    (hp : Passable (dbOf e.cur e.coll src) (goalDb e.cur e.coll drop src dest)) :
    ∃ db, Runs (dbOf e.cur e.coll src) (plan e (pgEvents src dest drop)) db ∧
      Reached e.cur e.coll drop src dest db := by
  have hl := endDb_alike hs hd hc
  have hG' := consistent_alike hl hG
  have hp' := passable_alike hl hp
  refine ⟨endDb e drop src dest, ?_, endDb_reached hs hd hc⟩
  unfold plan
  rw [List.append_assoc]
  exact runs_append (runs_append (runs_append (runs_append (runs_append (runs_append
    (run_dropFkeys hs hd hc) (run_dropSchemas hs hd hc hS hG'))
    (run_createSchemas hs hd _)) (run_dropTables hs hd hc hG'))
    (run_createTables hs hd hc hG' hp')) (run_alters hs hd hc hS hG' hp' hv hcoll))
    (run_addFkeys hs hd hc hG')

end

end PgSpec
