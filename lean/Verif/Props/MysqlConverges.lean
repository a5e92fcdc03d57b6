import Verif.Props.MysqlScript
import Verif.Props.TypeArgs
import Verif.Lemmas.Converge

/-!
# A MySQL migration turns the one database into the other (C67)
-/

namespace EngineSpec
open SqlSpec Sqddl DdlText CatalogSpec

/-- The table of this name. -/
def tab (c : Catalog) (k : Key) : Option Table :=
  (liveTables c).find? fun t => (t.tableSchema, t.tableName) == k

theorem tab_some {c : Catalog} {k : Key} {t : Table} (h : tab c k = some t) :
    t ∈ liveTables c ∧ (t.tableSchema, t.tableName) = k :=
  ⟨List.mem_of_find?_eq_some h, by simpa using List.find?_some h⟩

theorem tab_mem {c : Catalog} (hc : Ok c) {t : Table} (h : t ∈ liveTables c) :
    tab c (t.tableSchema, t.tableName) = some t :=
  find?_self (liveTables_nodup hc) h

theorem hasTable_tab (c : Catalog) (s n : Str) : hasTable c s n = (tab c (s, n)).isSome := by
  rw [hasTable_eq, findTable_key]; rfl

theorem hasTableConstraint_tab {c : Catalog} (hc : Ok c) (s t n : Str) :
    hasTableConstraint c s t n = match tab c (s, t) with
      | none => false
      | some x => ((liveConstraints x).find? fun y => y.constraintName == n).isSome := by
  rw [hasTableConstraint_eq hc, findTable_key]
  unfold tab
  cases (liveTables c).find? fun x => (x.tableSchema, x.tableName) == (s, t) with
  | none => rfl
  | some x => exact hasConstraint_find x n

theorem mem_common_iff {src dest : Catalog} (hdest : Ok dest) {p : Table × Table} :
    p ∈ commonTables src dest ↔ ∃ k, tab src k = some p.1 ∧ tab dest k = some p.2 := by
  simp only [commonTables, List.mem_filterMap, Option.map_eq_some_iff]
  constructor
  · rintro ⟨t, ht, s, hs, rfl⟩
    exact ⟨(t.tableSchema, t.tableName), hs, tab_mem hdest ht⟩
  · rintro ⟨k, h1, h2⟩
    obtain ⟨h3, rfl⟩ := tab_some h2
    exact ⟨p.2, h3, p.1, h1, rfl⟩

theorem schema_of_table {c : Catalog} (hc : Ok c) {t : Table} (h : t ∈ liveTables c) :
    hasSchema c t.tableSchema = true := by
  obtain ⟨s, hs, hi, ht, -⟩ := mem_liveTables.1 h
  rw [hasSchema, List.any_eq_true]
  refine ⟨s, List.mem_filter.2 ⟨hs, by simp [hi]⟩, ?_⟩
  simpa using ((hc.ok s hs).schemaName t ht).symm

theorem table_schema_ne {c : Catalog} (hc : Described c) {t : Table} (h : t ∈ liveTables c) :
    t.tableSchema ≠ [] := by
  obtain ⟨s, hs, hi, ht, -⟩ := mem_liveTables.1 h
  rw [(hc.ok.ok s hs).schemaName t ht]
  exact hc.schemas s (List.mem_filter.2 ⟨hs, by simp [hi]⟩)

theorem tab_schema_ne {c : Catalog} (hc : Described c) {k : Key} {t : Table}
    (h : tab c k = some t) : k.1 ≠ [] := by
  obtain ⟨h1, rfl⟩ := tab_some h
  exact table_schema_ne hc h1

theorem key_fullName {cur s n : Str} (h : s ≠ []) : key (fullName cur s n) = (s, n) := by
  simp [key, fullName, h]

section
variable (cur : Str) (drop : Bool) (src dest : Catalog)

/-- What the migration leads to. -/
def goalDb : Db where
  schema s := hasSchema dest s || (!drop && hasSchema src s)
  table k :=
    match tab src k, tab dest k with
    | some s, some t => some (goalTbl cur src.defaultCollation drop s t)
    | some s, none => if drop then none else some (tblOf cur src.defaultCollation s)
    | none, t => t.map (tblOf cur src.defaultCollation)

end

section
variable {cur : Str} {drop : Bool} {src dest : Catalog}

/-- The database of the source. -/
abbrev srcDb (cur : Str) (src : Catalog) : Db := dbOf cur src.defaultCollation src

theorem srcDb_table (k : Key) :
    (srcDb cur src).table k = (tab src k).map (tblOf cur src.defaultCollation) := rfl

theorem pairOk (hs : Described src) (hd : Described dest) (hc : Comparable cur drop src dest)
    {p : Table × Table} (hp : p ∈ commonTables src dest) : PairOk cur drop p.1 p.2 where
  src := liveTables_ok hs.ok (mem_commonTables hp).1
  dest := liveTables_ok hd.ok (mem_commonTables hp).2.1
  srcPrimary := hs.primary p.1 (mem_commonTables hp).1
  destPrimary := hd.primary p.2 (mem_commonTables hp).2.1
  constraints := hc.constraints p hp
  indexes := hc.indexes p hp
  checks := hc.checks p hp
  surplusChecks := fun e => hc.surplusChecks e p hp
  surplusColumns := fun e => hc.surplusColumns e p hp

/-- What `columnsAreDifferent` does not find. -/
theorem unchanged {coll : Str} {a b : Column} (h : columnsAreDifferent .mysql coll a b = false) :
    Unchanged coll a b := by
  unfold columnsAreDifferent at h
  simp only [Bool.or_eq_false_iff, decide_eq_false_iff_not, Classical.not_not] at h
  obtain ⟨⟨⟨⟨h1, h2⟩, h3⟩, _⟩, h4⟩ := h
  refine ⟨normType_same_partial h1,
    normalizeColumnDefault_distinguishes_partial .mysql _ _ (by simp) (by simp) h2, ?_, ?_⟩
  · cases e1 : a.isNotNull <;> cases e2 : b.isNotNull <;> simp_all
  · exact h4

theorem goalTbl_alike {coll : Str} {s t : Table} :
    Tbl.Alike (Tbl.goal drop (tblOf cur coll s) (tblOf cur coll t)) (goalTbl cur coll drop s t) := by
  refine ⟨fun n => ?_, rfl, rfl⟩
  show (newer drop (Option.map _ _) (Option.map _ _)).isSome = (goalCol coll drop s t n).isSome
  unfold goalCol
  cases (liveColumns s).find? (fun x => x.columnName == n) <;>
  cases (liveColumns t).find? (fun x => x.columnName == n) <;> cases drop <;> rfl

theorem goalDb_alike :
    Db.Alike (Db.goal drop (srcDb cur src) (dbOf cur src.defaultCollation dest))
      (goalDb cur drop src dest) := by
  refine ⟨rfl, fun k => ?_⟩
  have h2 : (dbOf cur src.defaultCollation dest).table k =
    (tab dest k).map (tblOf cur src.defaultCollation) := rfl
  unfold Db.goal goalDb
  dsimp only
  rw [srcDb_table, h2]
  cases tab src k with
  | none =>
    cases tab dest k with
    | none => trivial
    | some t => exact ⟨fun _ => rfl, rfl, rfl⟩
  | some s =>
    cases tab dest k with
    | none =>
      cases drop with
      | true => trivial
      | false => exact ⟨fun _ => rfl, rfl, rfl⟩
    | some t => exact goalTbl_alike

theorem goalDb_reached (hd : Ok dest) :
    Db.Reached cur src.defaultCollation drop src dest (goalDb cur drop src dest) where
  schema := rfl
  common := by
    intro p hp
    obtain ⟨k, h1, h2⟩ := (mem_common_iff hd).1 hp
    obtain ⟨_, rfl⟩ := tab_some h2
    have h3 : (dbOf cur src.defaultCollation src).table (p.2.tableSchema, p.2.tableName) =
      some (tblOf cur src.defaultCollation p.1) := by rw [srcDb_table, h1]; rfl
    have h4 : (dbOf cur src.defaultCollation dest).table (p.2.tableSchema, p.2.tableName) =
      some (tblOf cur src.defaultCollation p.2) := congrArg (Option.map _) h2
    refine ⟨goalTbl cur src.defaultCollation drop p.1 p.2, Tbl.goal drop (tblOf cur src.defaultCollation p.1) (tblOf cur src.defaultCollation p.2), ?_, ?_, ?_⟩
    · unfold goalDb; dsimp only; rw [h1, h2]
    · unfold Db.goal; dsimp only; rw [h3, h4]
    · refine ⟨rfl, rfl, fun n => ?_⟩
      show goalCol _ _ _ _ n = newer drop (Option.map _ _) (Option.map _ _) ∨ _
      have hg : (Tbl.goal drop (tblOf cur src.defaultCollation p.1)
          (tblOf cur src.defaultCollation p.2)).col n = newer drop
          (((liveColumns p.1).find? fun x => x.columnName == n).map
            (colOf .mysql src.defaultCollation false))
          (((liveColumns p.2).find? fun x => x.columnName == n).map
            (colOf .mysql src.defaultCollation false)) := rfl
      rw [hg]
      show goalCol _ _ _ _ n = newer drop
        (((liveColumns p.1).find? fun x => x.columnName == n).map
            (colOf .mysql src.defaultCollation false))
        (((liveColumns p.2).find? fun x => x.columnName == n).map
            (colOf .mysql src.defaultCollation false)) ∨ ∃ a ∈ liveColumns p.1, ∃ b ∈ liveColumns p.2,
          a.columnName = n ∧ b.columnName = n ∧ Unchanged src.defaultCollation a b ∧
          goalCol _ _ _ _ n = _ ∧ _
      unfold goalCol
      cases e1 : (liveColumns p.1).find? (fun x => x.columnName == n) with
      | none =>
        left
        cases e2 : (liveColumns p.2).find? (fun x => x.columnName == n) <;> cases drop <;> rfl
      | some a =>
        cases e2 : (liveColumns p.2).find? (fun x => x.columnName == n) with
        | none => left; cases drop <;> rfl
        | some b =>
          cases e3 : columnsAreDifferent .mysql src.defaultCollation a b with
          | true => left; simp [pickCol, e3, newer]
          | false =>
            right
            refine ⟨a, (find_some e1).1, b, (find_some e2).1, (find_some e1).2, (find_some e2).2,
              unchanged e3, ?_, rfl⟩
            simp [pickCol, e3]
  other := by
    intro k hk
    have h2 : (dbOf cur src.defaultCollation dest).table k =
      (tab dest k).map (tblOf cur src.defaultCollation) := rfl
    unfold Db.goal goalDb
    dsimp only
    have h1 : (dbOf cur src.defaultCollation src).table k =
      (tab src k).map (tblOf cur src.defaultCollation) := rfl
    rw [h1, h2]
    cases e1 : tab src k with
    | none => cases tab dest k <;> rfl
    | some s =>
      cases e2 : tab dest k with
      | none => rfl
      | some t =>
        exact absurd (tab_some e2).2 (hk (s, t) ((mem_common_iff hd).2 ⟨k, e1, e2⟩))

/-- The constraint of this name. -/
abbrev findCon (t : Table) (n : Str) : Option Constraint :=
  (liveConstraints t).find? fun c => c.constraintName == n

/-- The constraints of all tables of a catalog that satisfy a condition. -/
abbrev constraintsOf (c : Catalog) (p : Table → Constraint → Bool) : List Constraint :=
  (liveTables c).flatMap fun t => (liveConstraints t).filter (p t)

/-- The key of the table of a constraint, and its name. -/
abbrev conKey (x : Constraint) : Key × Str := ((x.tableSchema, x.tableName), x.constraintName)

theorem mem_constraintsOf {c : Catalog} (hc : Described c) {p : Table → Constraint → Bool}
    {x : Constraint} (h : x ∈ constraintsOf c p) :
    ∃ t, tab c (x.tableSchema, x.tableName) = some t ∧ findCon t x.constraintName = some x ∧
      p t x = true := by
  obtain ⟨t, ht, hx⟩ := List.mem_flatMap.1 h
  obtain ⟨hx, hp⟩ := List.mem_filter.1 hx
  obtain ⟨e1, e2⟩ := hc.constraints t ht x hx
  refine ⟨t, ?_, find?_self (nodup_constraints (liveTables_ok hc.ok ht)) hx, hp⟩
  rw [e1, e2]
  exact tab_mem hc.ok ht

theorem conKey_mem {c : Catalog} (hc : Described c) {p : Table → Constraint → Bool} {k : Key}
    {n : Str} : (k, n) ∈ (constraintsOf c p).map conKey ↔
      ∃ t x, tab c k = some t ∧ findCon t n = some x ∧ p t x = true := by
  constructor
  · intro h
    obtain ⟨x, hx, e⟩ := List.mem_map.1 h
    injection e with e1 e2
    subst e1 e2
    obtain ⟨t, h1, h2, h3⟩ := mem_constraintsOf hc hx
    exact ⟨t, x, h1, h2, h3⟩
  · rintro ⟨t, x, h1, h2, h3⟩
    obtain ⟨h4, rfl⟩ := tab_some h1
    obtain ⟨h5, rfl⟩ := find_some h2
    obtain ⟨e1, e2⟩ := hc.constraints t h4 x h5
    refine List.mem_map.2 ⟨x, List.mem_flatMap.2 ⟨t, h4, List.mem_filter.2 ⟨h5, h3⟩⟩, ?_⟩
    rw [conKey, e1, e2]

theorem conKey_nodup {c : Catalog} (hc : Described c) (p : Table → Constraint → Bool) :
    ((constraintsOf c p).map conKey).Nodup := by
  rw [List.map_flatMap, List.flatMap_def, List.Nodup, List.pairwise_flatten]
  constructor
  · intro l hl
    obtain ⟨t, ht, rfl⟩ := List.mem_map.1 hl
    have h1 := nodup_filter (nodup_constraints (liveTables_ok hc.ok ht)) (p t)
    rw [List.pairwise_map]
    exact (List.pairwise_map.1 h1).imp fun h e => h (congrArg Prod.snd e)
  · rw [List.pairwise_map]
    have h1 := List.pairwise_map.1 (liveTables_nodup hc.ok)
    refine List.Pairwise.imp_of_mem ?_ h1
    rintro a b ha hb h x hx y hy rfl
    obtain ⟨x', hx', e⟩ := List.mem_map.1 hx
    obtain ⟨y', hy', e'⟩ := List.mem_map.1 hy
    have e1 := hc.constraints a ha x' (List.mem_filter.1 hx').1
    have e2 := hc.constraints b hb y' (List.mem_filter.1 hy').1
    apply h
    have e3 := congrArg Prod.fst (e.trans e'.symm)
    simp only [conKey, e1, e2] at e3
    exact e3

theorem lacks_src {k : Key} {n : Str} (hs : Ok src) :
    lacks (srcDb cur src) k n = !hasTableConstraint src k.1 k.2 n := by
  unfold lacks
  rw [srcDb_table, hasTableConstraint_tab hs]
  cases tab src k with
  | none => rfl
  | some s =>
    simp only [Option.map_some, Option.bind_some, tblOf]
    cases (liveConstraints s).find? fun c => c.constraintName == n <;> rfl

theorem goal_src {k : Key} {s : Table} (h : tab src k = some s) :
    (goalDb cur drop src dest).table k = match tab dest k with
      | some t => some (goalTbl cur src.defaultCollation drop s t)
      | none => if drop then none else some (tblOf cur src.defaultCollation s) := by
  unfold goalDb
  dsimp only
  rw [h]
  cases tab dest k <;> rfl

theorem goal_new {k : Key} (h : tab src k = none) :
    (goalDb cur drop src dest).table k = (tab dest k).map (tblOf cur src.defaultCollation) := by
  unfold goalDb
  dsimp only
  rw [h]

theorem lacks_goal {k : Key} {n : Str} (hd : Ok dest) {s : Table} {x : Constraint}
    (h1 : tab src k = some s) (h2 : findCon s n = some x) :
    lacks (goalDb cur drop src dest) k n = (drop && !hasTableConstraint dest k.1 k.2 n) := by
  unfold lacks
  rw [goal_src h1, hasTableConstraint_tab hd]
  cases tab dest k with
  | none =>
    cases drop with
    | true => rfl
    | false => simp [tblOf, h2]
  | some t =>
    simp only [goalTbl, tblOf, Option.bind_some, h2, Option.map_some]
    cases (liveConstraints t).find? fun c => c.constraintName == n <;> cases drop <;> rfl

theorem goal_con {k : Key} {n : Str} {u : Tbl} {c : Con}
    (h1 : (goalDb cur drop src dest).table k = some u) (h2 : u.con n = some c) :
    (∃ t x, tab dest k = some t ∧ findCon t n = some x ∧ c = conOf .mysql cur x) ∨
    (∃ s x, tab src k = some s ∧ findCon s n = some x ∧ c = conOf .mysql cur x) := by
  cases e1 : tab src k with
  | none =>
    rw [goal_new e1] at h1
    obtain ⟨t, h3, rfl⟩ := Option.map_eq_some_iff.1 h1
    obtain ⟨x, h4, rfl⟩ := Option.map_eq_some_iff.1 h2
    exact Or.inl ⟨t, x, h3, h4, rfl⟩
  | some s =>
    rw [goal_src e1] at h1
    cases e2 : tab dest k with
    | none =>
      rw [e2] at h1
      dsimp only at h1
      split at h1
      · cases h1
      · injection h1 with h1
        subst h1
        obtain ⟨x, h4, rfl⟩ := Option.map_eq_some_iff.1 h2
        exact Or.inr ⟨s, x, rfl, h4, rfl⟩
    | some t =>
      rw [e2] at h1
      injection h1 with h1
      subst h1
      simp only [goalTbl, tblOf] at h2
      cases e3 : (liveConstraints t).find? fun c => c.constraintName == n with
      | some x =>
        rw [e3] at h2
        injection h2 with h2
        exact Or.inl ⟨t, x, rfl, e3, h2.symm⟩
      | none =>
        rw [e3] at h2
        cases drop with
        | true => cases h2
        | false =>
          obtain ⟨x, h4, rfl⟩ := Option.map_eq_some_iff.1 h2
          exact Or.inr ⟨s, x, rfl, h4, rfl⟩

theorem goal_dest {k : Key} {t : Table} (h1 : tab dest k = some t) :
    ∃ u, (goalDb cur drop src dest).table k = some u ∧
      ∀ n x, findCon t n = some x → u.con n = some (conOf .mysql cur x) := by
  cases e1 : tab src k with
  | none =>
    rw [goal_new e1, h1]
    refine ⟨_, rfl, fun n x h => ?_⟩
    simp only [tblOf, h, Option.map_some]
  | some s =>
    rw [goal_src e1, h1]
    refine ⟨_, rfl, fun n x h => ?_⟩
    simp only [goalTbl, tblOf, h, Option.map_some, newer]

theorem goal_compatible (hs : Described src) (hd : Described dest)
    (hc : Comparable cur drop src dest) :
    Compatible (srcDb cur src) (goalDb cur drop src dest) := by
  intro k s t n c d h1 h2 h3 h4 h5
  rw [srcDb_table] at h1
  obtain ⟨s', e1, rfl⟩ := Option.map_eq_some_iff.1 h1
  obtain ⟨x, e2, rfl⟩ := Option.map_eq_some_iff.1 h3
  rcases goal_con h2 h4 with ⟨t', y, e3, e4, rfl⟩ | ⟨s'', y, e3, e4, rfl⟩
  · have hp := pairOk hs hd hc (p := (s', t')) ((mem_common_iff hd.ok).2 ⟨k, e1, e3⟩)
    rcases common_con hp e2 e4 with ⟨_, h⟩ | ⟨_, h6, h7⟩
    · exact h
    · rw [isF_conOf, isF_conOf, key_not_foreign h6, key_not_foreign h7] at h5
      simp at h5
  · rw [e1] at e3
    injection e3 with e3
    subst e3
    have e5 := e2.symm.trans e4
    injection e5 with e5
    rw [e5]

/-! ## The parts of the migration -/

/-- The changes. -/
abbrev evs (src dest : Catalog) (drop : Bool) : List Ev := diffEvents .mysql src dest drop

theorem server : Server .mysql := by simp [Server]

theorem fullName_map {c : Catalog} (hc : Described c) {cur : Str} {xs : List Constraint}
    (h : ∀ x ∈ xs, ∃ t, tab c (x.tableSchema, x.tableName) = some t) :
    xs.map (fun x => (key (fullName cur x.tableSchema x.tableName), x.constraintName)) =
      xs.map conKey := by
  refine List.map_congr_left fun x hx => ?_
  obtain ⟨t, ht⟩ := h x hx
  rw [key_fullName (tab_schema_ne hc ht)]

section
variable (hs : Described src) (hd : Described dest) (hc : Comparable cur drop src dest)
variable (hS : (srcDb cur src).Consistent) (hT : (goalDb cur drop src dest).Consistent)

include hs hd hS in
theorem run_dropFkeys :
    Runs (srcDb cur src) (((evs src dest drop).filterMap Ev.dropFkey?).map (dropConstraintOf cur))
      ((srcDb cur src).cut (lacks (goalDb cur drop src dest))) := by
  have hperm := dropFkeys_exact server hs.ok hd.ok drop
  have hx : ∀ x ∈ (evs src dest drop).filterMap Ev.dropFkey?,
      drop = true ∧ ∃ t, tab src (x.tableSchema, x.tableName) = some t ∧
        findCon t x.constraintName = some x ∧ foreignKey x = true := by
    intro x hx
    have hx := hperm.mem_iff.1 hx
    cases drop with
    | false => cases hx
    | true =>
      obtain ⟨t, h1, h2, h3⟩ := mem_constraintsOf hs hx
      rw [Bool.and_eq_true] at h3
      exact ⟨rfl, t, h1, h2, h3.1⟩
  have hmap := fullName_map (cur := cur) hs fun x hx' => (hx x hx').2.imp fun _ h => h.1
  have h0 : (((evs src dest drop).filterMap Ev.dropFkey?).map conKey).Nodup := by
    rw [(hperm.map conKey).nodup_iff]
    cases drop with
    | false => exact List.nodup_nil
    | true => exact conKey_nodup hs _
  have hrun := phase_dropFkeys hS ((evs src dest drop).filterMap Ev.dropFkey?)
    (fun x => fullName cur x.tableSchema x.tableName) (fun x => x.constraintName)
    (by rw [hmap]; exact h0)
    (by
      intro x hx'
      obtain ⟨_, t, h1, h2, h3⟩ := hx x hx'
      rw [key_fullName (tab_schema_ne hs h1)]
      refine ⟨tblOf cur src.defaultCollation t, conOf .mysql cur x, ?_, ?_, ?_⟩
      · rw [srcDb_table, h1]; rfl
      · show Option.map _ (findCon t x.constraintName) = _
        rw [h2]; rfl
      · rw [isF_conOf, h3])
  have hcut : (srcDb cur src).cut (lacks (goalDb cur drop src dest)) = (srcDb cur src).cut
      fun k n => decide ((k, n) ∈ ((evs src dest drop).filterMap Ev.dropFkey?).map fun x =>
        (key (fullName cur x.tableSchema x.tableName), x.constraintName)) := by
    refine cut_congr fun k t n c h1 h2 h3 => ?_
    rw [srcDb_table] at h1
    obtain ⟨s, h4, rfl⟩ := Option.map_eq_some_iff.1 h1
    obtain ⟨x, h5, rfl⟩ := Option.map_eq_some_iff.1 h2
    rw [isF_conOf] at h3
    rw [lacks_goal hd.ok h4 h5, hmap]
    rw [Bool.eq_iff_iff, decide_eq_true_iff, (hperm.map conKey).mem_iff]
    cases drop with
    | false => simp
    | true =>
      rw [Bool.true_and, if_pos rfl]
      have := conKey_mem hs (k := k) (n := n) (p := fun t c => foreignKey c &&
        !hasTableConstraint dest t.tableSchema t.tableName c.constraintName)
      refine Iff.trans ?_ this.symm
      have e1 := (tab_some h4).2
      have e2 := (find_some h5).2
      subst e1 e2
      constructor
      · intro h
        exact ⟨s, x, h4, h5, by rw [h3, h]; rfl⟩
      · rintro ⟨s', x', h6, h7, h8⟩
        rw [h4] at h6
        injection h6 with h6
        subst h6
        have h9 := h5.symm.trans h7
        injection h9 with h9
        subst h9
        rw [h3] at h8
        exact h8
  rw [hcut]
  exact hrun

theorem hasSchema_iff {c : Catalog} {n : Str} :
    hasSchema c n = true ↔ n ∈ (liveSchemas c).map (·.schemaName) := by
  simp [hasSchema]

theorem hasSchema_ne {c : Catalog} (hc : Described c) {n : Str} (h : hasSchema c n = true) :
    n ≠ [] := by
  obtain ⟨s, h1, rfl⟩ := List.mem_map.1 (hasSchema_iff.1 h)
  exact hc.schemas s h1

theorem mem_schema_names {c : Catalog} (hc : Described c) (p : Str → Bool) {n : Str} :
    n ∈ ((liveSchemas c).filter fun s => s.schemaName != [] && p s.schemaName).map (·.schemaName) ↔
      hasSchema c n = true ∧ p n = true := by
  simp only [List.mem_map, List.mem_filter, Bool.and_eq_true, bne_iff_ne]
  constructor
  · rintro ⟨s, ⟨h1, _, h2⟩, rfl⟩
    exact ⟨hasSchema_iff.2 (List.mem_map.2 ⟨s, h1, rfl⟩), h2⟩
  · rintro ⟨h1, h2⟩
    have h3 := hasSchema_ne hc h1
    obtain ⟨s, h4, rfl⟩ := List.mem_map.1 (hasSchema_iff.1 h1)
    exact ⟨s, ⟨h4, h3, h2⟩, rfl⟩

include hs hd hc hS hT in
theorem run_dropSchemas :
    Runs ((srcDb cur src).cut (lacks (goalDb cur drop src dest)))
      (((evs src dest drop).filterMap Ev.dropSchema?).map fun s => .dropSchema s.schemaName)
      { schema := fun s => (srcDb cur src).schema s && (goalDb cur drop src dest).schema s
        table := fun k => if (goalDb cur drop src dest).schema k.1 then
          ((srcDb cur src).cut (lacks (goalDb cur drop src dest))).table k else none } := by
  have h1 := dropSchemas_exact server hs.ok hd.ok drop
  have h2 := phase_dropSchemas hS hT (goal_compatible hs hd hc)
    (((evs src dest drop).filterMap Ev.dropSchema?).map (·.schemaName))
    (by
      rw [h1]
      cases drop with
      | false => exact List.nodup_nil
      | true => exact (liveSchemas_nodup hs.ok).sublist (List.filter_sublist.map _))
    (by
      intro n
      rw [h1]
      show _ ↔ hasSchema src n = true ∧ (hasSchema dest n || (!drop && hasSchema src n)) = false
      cases drop with
      | false =>
        cases hasSchema src n <;> simp
      | true =>
        rw [if_pos rfl, mem_schema_names hs fun n => !hasSchema dest n]
        simp)
  rw [List.map_map] at h2
  exact h2

include hs hd hc hS hT in
theorem run_createSchemas :
    Runs
      { schema := fun s => (srcDb cur src).schema s && (goalDb cur drop src dest).schema s
        table := fun k => if (goalDb cur drop src dest).schema k.1 then
          ((srcDb cur src).cut (lacks (goalDb cur drop src dest))).table k else none }
      (((evs src dest drop).filterMap Ev.createSchema?).map .createSchema)
      { schema := (goalDb cur drop src dest).schema
        table := fun k => if (goalDb cur drop src dest).schema k.1 then
          ((srcDb cur src).cut (lacks (goalDb cur drop src dest))).table k else none } := by
  have h1 := createSchemas_exact server hs.ok hd.ok drop
  refine phase_createSchemas hS hT (goal_compatible hs hd hc)
    ((evs src dest drop).filterMap Ev.createSchema?) ?_ ?_
  · rw [h1]
    exact (liveSchemas_nodup hd.ok).sublist (List.filter_sublist.map _)
  · intro n
    rw [h1, mem_schema_names hd fun n => !hasSchema src n]
    show _ ↔ (hasSchema dest n || (!drop && hasSchema src n)) = true ∧ hasSchema src n = false
    cases hasSchema src n <;> simp

theorem nodup_dropTables (hs : Ok src) (hd : Ok dest) :
    (((evs src dest drop).filterMap Ev.dropTable?).map fun t => (t.tableSchema, t.tableName)).Nodup := by
  rw [dropTables_exact server hs hd drop]
  cases drop with
  | false => exact List.nodup_nil
  | true =>
    rw [if_pos rfl, List.map_flatMap, List.flatMap_def, List.Nodup, List.pairwise_flatten]
    constructor
    · intro l hl
      obtain ⟨t, ht, rfl⟩ := List.mem_map.1 hl
      exact (liveTables_nodup hs).sublist (List.filter_sublist.map _)
    · rw [List.pairwise_map]
      have h1 := List.pairwise_map.1 (liveSchemas_nodup hd)
      refine h1.imp ?_
      rintro a b h x hx y hy rfl
      obtain ⟨t, h2, e1⟩ := List.mem_map.1 hx
      obtain ⟨t', h3, e2⟩ := List.mem_map.1 hy
      have h4 := (List.mem_filter.1 h2).2
      have h5 := (List.mem_filter.1 h3).2
      simp only [Bool.and_eq_true, beq_iff_eq] at h4 h5
      have e3 := congrArg Prod.fst (e1.trans e2.symm)
      exact h (h4.1.symm.trans (e3.trans h5.1))

theorem fullName_tables {c : Catalog} (hc : Described c) {cur : Str} {xs : List Table}
    (h : ∀ x ∈ xs, x ∈ liveTables c) :
    xs.map (fun x => key (fullName cur x.tableSchema x.tableName)) =
      xs.map fun x => (x.tableSchema, x.tableName) :=
  List.map_congr_left fun x hx => key_fullName (table_schema_ne hc (h x hx))

include hs hd hc hS hT in
theorem run_dropTables :
    Runs
      { schema := (goalDb cur drop src dest).schema
        table := fun k => if (goalDb cur drop src dest).schema k.1 then
          ((srcDb cur src).cut (lacks (goalDb cur drop src dest))).table k else none }
      (((evs src dest drop).filterMap Ev.dropTable?).map fun t =>
        .dropTable (fullName cur t.tableSchema t.tableName))
      { schema := (goalDb cur drop src dest).schema
        table := fun k => if ((goalDb cur drop src dest).table k).isSome then
          ((srcDb cur src).cut (lacks (goalDb cur drop src dest))).table k else none } := by
  have h1 := dropTables_exact server hs.ok hd.ok drop
  have hmem : ∀ t, t ∈ (evs src dest drop).filterMap Ev.dropTable? ↔ drop = true ∧
      t ∈ liveTables src ∧ hasSchema dest t.tableSchema = true ∧
        hasTable dest t.tableSchema t.tableName = false := by
    intro t
    rw [h1]
    cases drop with
    | false => simp
    | true => rw [if_pos rfl, mem_dropTables_iff]; simp
  have hmap := fullName_tables (cur := cur) hs fun t ht => ((hmem t).1 ht).2.1
  refine phase_dropTables hS hT (goal_compatible hs hd hc)
    ((evs src dest drop).filterMap Ev.dropTable?)
    (fun t => fullName cur t.tableSchema t.tableName) ?_ ?_
  · rw [hmap]
    exact nodup_dropTables hs.ok hd.ok
  · intro k
    rw [hmap, srcDb_table]
    show _ ↔ _ ∧ _ ∧ (hasSchema dest k.1 || (!drop && hasSchema src k.1)) = true
    constructor
    · intro h
      obtain ⟨t, h2, rfl⟩ := List.mem_map.1 h
      obtain ⟨rfl, h3, h4, h5⟩ := (hmem t).1 h2
      rw [hasTable_tab, Option.isSome_eq_false_iff, Option.isNone_iff_eq_none] at h5
      have h6 := tab_mem hs.ok h3
      refine ⟨by rw [h6]; rfl, ?_, by rw [h4]; rfl⟩
      rw [goal_src h6, h5]; rfl
    · rintro ⟨h2, h3, h4⟩
      cases e1 : tab src k with
      | none => rw [e1] at h2; cases h2
      | some s =>
        rw [goal_src e1] at h3
        cases e2 : tab dest k with
        | some t => rw [e2] at h3; cases h3
        | none =>
          rw [e2] at h3
          cases drop with
          | false => cases h3
          | true =>
            obtain ⟨h5, rfl⟩ := tab_some e1
            refine List.mem_map.2 ⟨s, (hmem s).2 ⟨rfl, h5, by simpa using h4, ?_⟩, rfl⟩
            rw [hasTable_tab, e2]; rfl

theorem tableConstraints_eq (t : Table) :
    tableConstraints .mysql true t = (liveConstraints t).filter fun c => !foreignKey c := by
  unfold tableConstraints foreignKey
  refine List.filter_congr fun c _ => ?_
  rw [if_neg (by decide), if_pos rfl]
  rw [show FOREIGN_KEY = b!"FOREIGN KEY" from rfl]
  by_cases e : c.constraintType = b!"FOREIGN KEY" <;> simp [e]

/-- What CREATE TABLE makes of a table. -/
theorem acts_create {coll : Str} {t : Table} (ht : TableOk t)
    (hp : ∀ x ∈ liveConstraints t, x.constraintType = b!"PRIMARY KEY" →
      x.constraintName = b!"PRIMARY") :
    acts emptyTbl (((liveColumns t).map (fun c => Item.col (colOf .mysql coll false c)) ++
      (tableConstraints .mysql true t).map fun c => Item.con (conOf .mysql cur c)).map itemAction) =
    some ⟨(tblOf cur coll t).col, fun n => ((tblOf cur coll t).con n).filter fun c => !isF c,
      fun _ => none⟩ := by
  rw [List.map_append, List.map_map, List.map_map, tableConstraints_eq]
  have e1 : (liveColumns t).map (itemAction ∘ fun c => Item.col (colOf .mysql coll false c)) =
    ((liveColumns t).map (colOf .mysql coll false)).map .addColumn := by rw [List.map_map]; rfl
  have e2 : ((liveConstraints t).filter fun c => !foreignKey c).map
      (itemAction ∘ fun c => Item.con (conOf .mysql cur c)) =
    (((liveConstraints t).filter fun c => !foreignKey c).map (conOf .mysql cur)).map
      .addConstraint := by rw [List.map_map]; rfl
  have hname : ∀ x ∈ (liveConstraints t).filter fun c => !foreignKey c,
      conId (conOf .mysql cur x) = x.constraintName := fun x hx =>
    conId_conOf cur x (named ht (List.mem_filter.1 hx).1) (hp x (List.mem_filter.1 hx).1)
  rw [e1, e2, acts_append _ _ _ _ (acts_addColumns _ emptyTbl (by
      rw [List.map_map]; exact nodup_columns ht) (fun _ _ => rfl)),
    acts_addConstraints _ _ (by
      rw [List.map_map]
      rw [List.map_congr_left (g := fun x => x.constraintName) hname]
      exact nodup_filter (nodup_constraints ht) _) (fun _ _ => rfl)]
  refine congrArg some ?_
  have f1 : puts (fun c => c.name) emptyTbl.col ((liveColumns t).map (colOf .mysql coll false)) =
      (tblOf cur coll t).col := by
    funext n
    rw [puts_map (nm := fun x => x.columnName) (colOf .mysql coll false) (fun _ _ => rfl)]
    show _ = Option.map _ _
    cases (liveColumns t).find? fun y => y.columnName == n <;> rfl
  have f2 : puts conId emptyTbl.con
      (((liveConstraints t).filter fun c => !foreignKey c).map (conOf .mysql cur)) =
      fun n => ((tblOf cur coll t).con n).filter fun c => !isF c := by
    funext n
    rw [puts_map (nm := fun x => x.constraintName) (conOf .mysql cur) hname,
      find_filter (nodup_constraints ht)]
    show _ = Option.filter _ (Option.map _ _)
    cases (liveConstraints t).find? fun y => y.constraintName == n with
    | none => rfl
    | some x =>
      simp only [Option.filter_some, Option.map_some, isF_conOf]
      cases foreignKey x <;> rfl
  rw [← f1, ← f2]
  rfl

include hs hd hc hS hT in
theorem run_createTables :
    Runs
      { schema := (goalDb cur drop src dest).schema
        table := fun k => if ((goalDb cur drop src dest).table k).isSome then
          ((srcDb cur src).cut (lacks (goalDb cur drop src dest))).table k else none }
      (((evs src dest drop).filterMap Ev.createTable?).flatMap
        (Mysql.createOf cur src.defaultCollation))
      { schema := (goalDb cur drop src dest).schema
        table := fun k => if ((srcDb cur src).table k).isSome then
          (if ((goalDb cur drop src dest).table k).isSome then
            ((srcDb cur src).cut (lacks (goalDb cur drop src dest))).table k else none)
          else ((goalDb cur drop src dest).cut (lacks (srcDb cur src))).table k } := by
  have h1 := createTables_exact server hs.ok hd.ok drop
  have hmem : ∀ t, t ∈ (evs src dest drop).filterMap Ev.createTable? ↔ t ∈ liveTables dest ∧
      tab src (t.tableSchema, t.tableName) = none := by
    intro t
    rw [h1, List.mem_filter, hasTable_tab]
    simp
  have hmap := fullName_tables (cur := cur) hd fun t ht => ((hmem t).1 ht).1
  have hrun := phase_createTables hS hT (goal_compatible hs hd hc)
    ((evs src dest drop).filterMap Ev.createTable?)
    (fun t => fullName cur t.tableSchema t.tableName)
    (fun t => (liveColumns t).map (fun c => .col (colOf .mysql src.defaultCollation false c)) ++
      (tableConstraints .mysql true t).map fun c => .con (conOf .mysql cur c))
    (fun t => t.indexes.map fun x => (idxOf .mysql cur false false x).resolve cur)
    (by
      rw [hmap, h1]
      exact (liveTables_nodup hd.ok).sublist (List.filter_sublist.map _))
    (by
      intro k
      rw [hmap, srcDb_table]
      constructor
      · intro h
        obtain ⟨t, h2, rfl⟩ := List.mem_map.1 h
        obtain ⟨h3, h4⟩ := (hmem t).1 h2
        rw [goal_new h4, tab_mem hd.ok h3, h4]
        exact ⟨rfl, rfl⟩
      · rintro ⟨h2, h3⟩
        have h4 : tab src k = none := by simpa using h3
        rw [goal_new h4] at h2
        cases e : tab dest k with
        | none => rw [e] at h2; cases h2
        | some t =>
          obtain ⟨h5, rfl⟩ := tab_some e
          exact List.mem_map.2 ⟨t, (hmem t).2 ⟨h5, h4⟩, rfl⟩)
    (by
      intro t ht u hu
      obtain ⟨h2, h3⟩ := (hmem t).1 ht
      rw [key_fullName (table_schema_ne hd h2), goal_new h3, tab_mem hd.ok h2] at hu
      injection hu with hu
      subst hu
      have hok := liveTables_ok hd.ok h2
      have hlive : liveIndexes t = t.indexes :=
        List.filter_eq_self.2 fun x hx => by
          rw [hc.created t h2 (by rw [hasTable_tab, h3]; rfl) x hx]; rfl
      refine ⟨acts_create hok (hd.primary t h2), ?_, ?_, ?_⟩
      · rw [List.map_map]
        exact hok.indexes
      · intro y hy
        obtain ⟨x, hx, rfl⟩ := List.mem_map.1 hy
        obtain ⟨e1, e2⟩ := hd.indexes t h2 x hx
        refine ⟨?_, fullName cur t.tableSchema t.tableName, ?_, ?_⟩
        · have := find?_self (xs := liveIndexes t) (nodup_indexes hok) (hlive ▸ hx)
          show Option.map _ ((liveIndexes t).find? fun z => z.indexName == x.indexName) = _
          rw [this]
          rfl
        · have hne := table_schema_ne hd h2
          simp only [Idx.resolve, idxOf, fullName, e1, e2]
          by_cases e3 : t.tableSchema = cur
          · simp [e3, full]
          · simp [hne, e3, full]
        · rfl
      · funext n
        rw [List.map_map, puts_map (nm := fun x : Index => x.indexName) (mn := fun y : Idx => y.name)
          (plainIdx ∘ fun x => Idx.resolve cur (idxOf .mysql cur false false x)) (fun _ _ => rfl),
          ← hlive]
        show _ = Option.map _ _
        cases (liveIndexes t).find? fun y => y.indexName == n <;> rfl)
  have e : (((evs src dest drop).filterMap Ev.createTable?).flatMap
        (Mysql.createOf cur src.defaultCollation)) =
      ((evs src dest drop).filterMap Ev.createTable?).flatMap fun x =>
        .createTable (fullName cur x.tableSchema x.tableName)
          ((liveColumns x).map (fun c => .col (colOf .mysql src.defaultCollation false c)) ++
            (tableConstraints .mysql true x).map fun c => .con (conOf .mysql cur c)) ::
          (x.indexes.map fun x => (idxOf .mysql cur false false x).resolve cur).map .createIndex := by
    congr 1
    funext t
    rw [List.map_map]
    rfl
  rw [e]
  exact hrun

include hs hd hc hS hT in
theorem run_alters :
    Runs
      { schema := (goalDb cur drop src dest).schema
        table := fun k => if ((srcDb cur src).table k).isSome then
          (if ((goalDb cur drop src dest).table k).isSome then
            ((srcDb cur src).cut (lacks (goalDb cur drop src dest))).table k else none)
          else ((goalDb cur drop src dest).cut (lacks (srcDb cur src))).table k }
      (((evs src dest drop).filterMap Ev.alter?).map
        (DdlText.alterTableOf .mysql cur src.defaultCollation))
      ((goalDb cur drop src dest).cut (lacks (srcDb cur src))) := by
  have hmem : ∀ a ∈ (evs src dest drop).filterMap Ev.alter?, ∃ p ∈ commonTables src dest,
      a = mysqlAlterTable (diffEnv src dest drop) p.1 p.2 := fun a ha =>
    mem_alters server hs.ok hd.ok ha
  have hne : ∀ p ∈ commonTables src dest, p.2.tableSchema ≠ [] := fun p hp =>
    table_schema_ne hd (mem_commonTables hp).2.1
  have hmap : ((evs src dest drop).filterMap Ev.alter?).map (fun a =>
      key (fullName cur a.destTable.tableSchema a.destTable.tableName)) =
      ((evs src dest drop).filterMap Ev.alter?).map fun a =>
        (a.destTable.tableSchema, a.destTable.tableName) := by
    refine List.map_congr_left fun a ha => ?_
    obtain ⟨p, hp, rfl⟩ := hmem a ha
    exact key_fullName (hne p hp)
  have hacts : ∀ p ∈ commonTables src dest, ∀ k, tab src k = some p.1 → tab dest k = some p.2 →
      acts ((tblOf cur src.defaultCollation p.1).cut (lacks (goalDb cur drop src dest) k))
        (alterActions .mysql cur src.defaultCollation
          (mysqlAlterTable (diffEnv src dest drop) p.1 p.2)) =
      some ((goalTbl cur src.defaultCollation drop p.1 p.2).cut (lacks (srcDb cur src) k)) := by
    intro p hp k h1 h2
    refine acts_alter (pairOk hs hd hc hp) (changes hs.ok hd.ok drop hp) ?_ ?_
    · intro n x hx
      rw [lacks_goal hd.ok h1 hx, hasTableConstraint_tab hd.ok, h2]
      dsimp only
      cases (liveConstraints p.2).find? fun y => y.constraintName == n <;> rfl
    · intro n
      rw [lacks_src hs.ok, hasTableConstraint_tab hs.ok, h1]
      dsimp only
      cases (liveConstraints p.1).find? fun y => y.constraintName == n <;> rfl
  refine phase_alter hS hT (goal_compatible hs hd hc) ((evs src dest drop).filterMap Ev.alter?)
    (fun a => fullName cur a.destTable.tableSchema a.destTable.tableName)
    (fun a => alterActions .mysql cur src.defaultCollation a) ?_ ?_ ?_
  · rw [hmap]
    exact alters_once hs.ok hd.ok drop server
  · intro a ha
    obtain ⟨p, hp, rfl⟩ := hmem a ha
    obtain ⟨k, h1, h2⟩ := (mem_common_iff hd.ok).1 hp
    have h3 := (tab_some h2).2
    have e : key (fullName cur p.2.tableSchema p.2.tableName) = k := by
      rw [key_fullName (hne p hp), h3]
    show ∃ s t, (srcDb cur src).table (key (fullName cur p.2.tableSchema p.2.tableName)) = _ ∧ _
    rw [e]
    refine ⟨tblOf cur src.defaultCollation p.1, goalTbl cur src.defaultCollation drop p.1 p.2,
      ?_, ?_, ?_⟩
    · rw [srcDb_table, h1]; rfl
    · show (goalDb cur drop src dest).table
        (key (fullName cur p.2.tableSchema p.2.tableName)) = _
      rw [e, goal_src h1, h2]
    · show acts (Tbl.cut (lacks _ (key (fullName cur p.2.tableSchema p.2.tableName))) _) _ =
        some (Tbl.cut (lacks _ (key (fullName cur p.2.tableSchema p.2.tableName))) _)
      rw [e]
      exact hacts p hp k h1 h2
  · intro k s t h1 h2 h3
    rw [srcDb_table] at h1
    obtain ⟨s', h4, rfl⟩ := Option.map_eq_some_iff.1 h1
    rw [goal_src h4] at h2
    cases h5 : tab dest k with
    | none =>
      -- a table that is kept
      rw [h5] at h2
      cases drop with
      | true => cases h2
      | false =>
        injection h2 with h2
        subst h2
        refine Tbl.ext rfl ?_ rfl
        funext n
        show Option.filter _ (Option.map _ (findCon s' n)) = Option.filter _ (Option.map _ (findCon s' n))
        cases h6 : findCon s' n with
        | none => rfl
        | some x =>
          rw [lacks_goal hd.ok h4 h6, lacks_src hs.ok, hasTableConstraint_tab hs.ok, h4]
          dsimp only
          rw [show (liveConstraints s').find? (fun c => c.constraintName == n) = some x from h6]
          simp
    | some t' =>
      rw [h5] at h2
      injection h2 with h2
      subst h2
      have hp : (s', t') ∈ commonTables src dest := (mem_common_iff hd.ok).2 ⟨k, h4, h5⟩
      have hw : (mysqlAlterTable (diffEnv src dest drop) s' t').worthKeeping = false := by
        cases h6 : (mysqlAlterTable (diffEnv src dest drop) s' t').worthKeeping with
        | false => rfl
        | true =>
          refine absurd ?_ h3
          rw [hmap, alters_eq server hs.ok hd.ok]
          refine List.mem_map.2 ⟨mysqlAlterTable (diffEnv src dest drop) s' t',
            List.mem_flatMap.2 ⟨(s', t'), hp, ?_⟩, (tab_some h5).2⟩
          show _ ∈ if (mysqlAlterTable (diffEnv src dest drop) s' t').worthKeeping = true then _ else _
          rw [if_pos h6]
          exact List.mem_singleton.2 rfl
      have h7 := hacts (s', t') hp k h4 h5
      dsimp only at h7
      rw [actions_nil (pairOk hs hd hc hp) (changes hs.ok hd.ok drop hp) rfl hw] at h7
      injection h7

include hs hd hT in
theorem run_addFkeys :
    Runs ((goalDb cur drop src dest).cut (lacks (srcDb cur src)))
      (((evs src dest drop).filterMap Ev.anyAddFkey?).map (addConstraintOf .mysql cur))
      (goalDb cur drop src dest) := by
  have h1 := addFkeys_exact server hs.ok hd.ok drop
  have hx : ∀ x ∈ (evs src dest drop).filterMap Ev.anyAddFkey?,
      ∃ t, tab dest (x.tableSchema, x.tableName) = some t ∧
        findCon t x.constraintName = some x ∧ foreignKey x = true := by
    intro x hx
    rw [h1] at hx
    obtain ⟨t, h1, h2, h3⟩ := mem_constraintsOf hd hx
    rw [Bool.and_eq_true] at h3
    exact ⟨t, h1, h2, h3.1⟩
  have hid : ∀ x ∈ (evs src dest drop).filterMap Ev.anyAddFkey?,
      conId (conOf .mysql cur x) = x.constraintName := by
    intro x hx'
    obtain ⟨t, h2, h3, _⟩ := hx x hx'
    have h4 := (tab_some h2).1
    have h5 := (find_some h3).1
    exact conId_conOf cur x (named (liveTables_ok hd.ok h4) h5) (hd.primary t h4 x h5)
  have hmap : ((evs src dest drop).filterMap Ev.anyAddFkey?).map (fun x =>
      (key (fullName cur x.tableSchema x.tableName), conId (conOf .mysql cur x))) =
      ((evs src dest drop).filterMap Ev.anyAddFkey?).map conKey := by
    refine List.map_congr_left fun x hx' => ?_
    obtain ⟨t, h2, _⟩ := hx x hx'
    rw [key_fullName (tab_schema_ne hd h2), hid x hx']
  have hrun := phase_addFkeys hT ((evs src dest drop).filterMap Ev.anyAddFkey?)
    (fun x => fullName cur x.tableSchema x.tableName) (fun x => conOf .mysql cur x)
    (by rw [hmap, h1]; exact conKey_nodup hd _)
    (by
      intro x hx'
      obtain ⟨t, h2, h3, h4⟩ := hx x hx'
      refine ⟨by rw [isF_conOf, h4], ?_⟩
      rw [key_fullName (tab_schema_ne hd h2), hid x hx']
      obtain ⟨u, h5, h6⟩ := goal_dest (cur := cur) (drop := drop) (src := src) h2
      exact ⟨u, h5, h6 _ x h3⟩)
  have hcut : (goalDb cur drop src dest).cut (lacks (srcDb cur src)) = (goalDb cur drop src dest).cut
      fun k n => decide ((k, n) ∈ ((evs src dest drop).filterMap Ev.anyAddFkey?).map fun x =>
        (key (fullName cur x.tableSchema x.tableName), conId (conOf .mysql cur x))) := by
    refine cut_congr fun k t n c h2 h3 h4 => ?_
    rw [lacks_src hs.ok, hmap, h1]
    rw [Bool.eq_iff_iff, decide_eq_true_iff, conKey_mem hd]
    rcases goal_con h2 h3 with ⟨t', x, h5, h6, rfl⟩ | ⟨s', x, h5, h6, rfl⟩
    · rw [isF_conOf] at h4
      have e1 := (tab_some h5).2
      have e2 := (find_some h6).2
      subst e1 e2
      constructor
      · intro h
        exact ⟨t', x, h5, h6, by rw [h4, h]; rfl⟩
      · rintro ⟨t'', x', h7, h8, h9⟩
        rw [h5] at h7
        injection h7 with h7
        subst h7
        have h10 := h6.symm.trans h8
        injection h10 with h10
        subst h10
        rw [h4] at h9
        exact h9
    · have h7 : hasTableConstraint src k.1 k.2 n = true := by
        rw [hasTableConstraint_tab hs.ok, h5]
        dsimp only
        rw [show (liveConstraints s').find? (fun c => c.constraintName == n) = some x from h6]
        rfl
      rw [h7]
      constructor
      · intro h; cases h
      · rintro ⟨t'', x', h8, h9, h10⟩
        have e1 := (tab_some h8).2
        have e2 := (find_some h9).2
        subst e1 e2
        rw [h7] at h10
        simp at h10
  rw [hcut]
  exact hrun

/-- C67: the statements of a MySQL migration succeed one after the other, and the database becomes
what the migration is meant to achieve. -/
theorem plan_converges (hs : Described src) (hd : Described dest)
    (hc : Comparable cur drop src dest)
    (hS : (dbOf cur src.defaultCollation src).Consistent)
    (hT : (Db.goal drop (dbOf cur src.defaultCollation src)
      (dbOf cur src.defaultCollation dest)).Consistent) :
    ∃ db, Runs (dbOf cur src.defaultCollation src)
      (Mysql.plan cur src.defaultCollation (diffEvents .mysql src dest drop)) db ∧
      Db.Reached cur src.defaultCollation drop src dest db := by
  have hT' := goalDb_alike.consistent hT
  refine ⟨goalDb cur drop src dest, ?_, goalDb_reached hd.ok⟩
  have app : ∀ {a b : List Stmt} {db m db' : Db}, Runs db a m → Runs m b db' → Runs db (a ++ b) db' :=
    fun h1 h2 => runs_append _ _ _ _ _ h1 h2
  exact app (app (app (app (app (app
    (run_dropFkeys hs hd hS) (run_dropSchemas hs hd hc hS hT'))
    (run_createSchemas hs hd hc hS hT')) (run_dropTables hs hd hc hS hT'))
    (run_createTables hs hd hc hS hT')) (run_alters hs hd hc hS hT')) (run_addFkeys hs hd hT')

end

/-! ## The text of the migration -/

theorem schema_plain {coll : Str} (he : Expressible cur coll src dest) {t : Table}
    (ht : t ∈ liveTables src ∨ t ∈ liveTables dest) (hs : Ok src) (hd : Ok dest) :
    PlainName .mysql t.tableSchema := by
  have key : ∀ c, Ok c → t ∈ liveTables c →
      ∃ s ∈ liveSchemas c, s.schemaName = t.tableSchema := by
    intro c hc h
    obtain ⟨s, hs, hi, ht, -⟩ := mem_liveTables.1 h
    exact ⟨s, List.mem_filter.2 ⟨hs, by simp [hi]⟩, ((hc.ok s hs).schemaName t ht).symm⟩
  rcases ht with ht | ht
  · obtain ⟨s, h1, h2⟩ := key src hs ht
    rw [← h2]
    exact he.schemas s (List.mem_append_left _ h1)
  · obtain ⟨s, h1, h2⟩ := key dest hd ht
    rw [← h2]
    exact he.schemas s (List.mem_append_right _ h1)

/-- A change that is noticed is written. -/
theorem actions_ne {coll : Str} {a : AlterTable} (hc : a.alterConstraints = [])
    (hw : a.worthKeeping = true) : alterActions .mysql cur coll a ≠ [] := by
  intro h
  unfold alterActions at h
  simp only [List.append_eq_nil_iff, List.map_eq_nil_iff] at h
  obtain ⟨⟨⟨⟨⟨⟨h1, h2⟩, h3⟩, h4⟩, h5⟩, h6⟩, h7⟩ := h
  simp [AlterTable.worthKeeping, h1, h2, h4, h5, h6, h7, hc] at hw

theorem plan_text (hs : Described src) (hd : Described dest)
    (he : Expressible cur src.defaultCollation src dest) :
    Mysql.PlanText cur src.defaultCollation (diffEvents .mysql src dest drop) where
  dropFkeys := by
    intro c hc
    have hc := (dropFkeys_exact server hs.ok hd.ok drop).mem_iff.1 hc
    cases drop with
    | false => cases hc
    | true =>
      obtain ⟨t, h1, h2, h3⟩ := mem_constraintsOf hs hc
      obtain ⟨h4, h5⟩ := tab_some h1
      have e1 : t.tableSchema = c.tableSchema := congrArg Prod.fst h5
      have e2 : t.tableName = c.tableName := congrArg Prod.snd h5
      rw [← e1, ← e2]
      exact ⟨fun _ => schema_plain he (Or.inl h4) hs.ok hd.ok, (he.names t h4).1,
        (he.names t h4).2.2.1 c (find_some h2).1⟩
  dropSchemas := by
    intro s h
    rw [dropSchemas_exact server hs.ok hd.ok drop] at h
    cases drop with
    | false => cases h
    | true => exact he.schemas s (List.mem_append_left _ (List.mem_filter.1 h).1)
  createSchemas := by
    intro n h
    rw [createSchemas_exact server hs.ok hd.ok drop] at h
    obtain ⟨s, h1, rfl⟩ := List.mem_map.1 h
    exact he.schemas s (List.mem_append_right _ (List.mem_filter.1 h1).1)
  dropTables := by
    intro t h
    rw [dropTables_exact server hs.ok hd.ok drop] at h
    cases drop with
    | false => cases h
    | true =>
      rw [if_pos rfl, mem_dropTables_iff] at h
      exact ⟨fun _ => schema_plain he (Or.inl h.1) hs.ok hd.ok, (he.names t h.1).1⟩
  createTables := by
    intro t h
    rw [createTables_exact server hs.ok hd.ok drop, List.mem_filter] at h
    refine ⟨he.tables t h.1, fun x hx => ?_⟩
    have h2 := he.indexes t h.1 x hx
    have h3 : hasTable src t.tableSchema t.tableName = false := by simpa using h.2
    rw [h3] at h2
    exact h2
  alters := by
    intro a ha
    have ha' := ha
    rw [alters_eq server hs.ok hd.ok] at ha'
    obtain ⟨p, hp, hw⟩ := List.mem_flatMap.1 ha'
    dsimp only at hw
    split at hw
    · rename_i hk
      rw [List.mem_singleton] at hw
      have hw : a = mysqlAlterTable (diffEnv src dest drop) p.1 p.2 := hw
      subst hw
      obtain ⟨h1, h2, -⟩ := mem_commonTables hp
      have hch := changes hs.ok hd.ok drop hp
      have htext := he.tables p.2 h2
      have hn := he.names p.1 h1
      have hin : hasTable src p.2.tableSchema p.2.tableName = true := by
        obtain ⟨k, h3, h4⟩ := (mem_common_iff hd.ok).1 hp
        rw [hasTable_tab, (tab_some h4).2, h3]; rfl
      exact {
        schema := fun _ => schema_plain he (Or.inr h2) hs.ok hd.ok
        name := htext.name
        dropConstraints := by
          intro c hc
          rw [hch.dropConstraints] at hc
          refine hn.2.2.1 c ?_
          rcases List.mem_append.1 hc with hc | hc
          · cases drop with
            | false => cases hc
            | true => exact (List.mem_filter.1 hc).1
          · obtain ⟨q, hq, rfl⟩ := List.mem_map.1 hc
            obtain ⟨n, h3, -⟩ := (mem_commonConstraints_iff
              (liveTables_ok hd.ok h2)).1 (List.mem_filter.1 hq).1
            exact (find_some h3).1
        dropIndexes := by
          intro x hx
          rw [hch.dropIndexes] at hx
          cases drop with
          | false => cases hx
          | true => exact hn.2.2.2 x (List.mem_filter.1 hx).1
        dropColumns := by
          intro x hx
          rw [hch.dropColumns] at hx
          cases drop with
          | false => cases hx
          | true => exact hn.2.1 x (List.mem_filter.1 hx).1
        addColumns := by
          intro x hx
          rw [hch.addColumns] at hx
          exact htext.columns x (List.mem_filter.1 hx).1
        alterColumns := by
          intro q hq
          rw [hch.alterColumns] at hq
          obtain ⟨n, -, h3⟩ := (mem_commonColumns_iff
            (liveTables_ok hd.ok h2)).1 (List.mem_filter.1 hq).1
          exact htext.columns q.2 (find_some h3).1
        createIndexes := by
          intro x hx
          rw [hch.createIndexes] at hx
          have h3 := (he.indexes p.2 h2 x
            (List.mem_filter.1 (List.mem_filter.1 hx).1).1).2
          rw [hin] at h3
          exact h3
        addConstraints := by
          intro c hc
          rw [hch.addConstraints] at hc
          exact htext.constraints c (List.mem_filter.1 hc).1
        some := actions_ne rfl hk }
    · cases hw
  addFkeys := by
    intro c hc
    rw [addFkeys_exact server hs.ok hd.ok drop] at hc
    obtain ⟨t, h1, h2, h3⟩ := mem_constraintsOf hd hc
    obtain ⟨h4, h5⟩ := tab_some h1
    have e1 : t.tableSchema = c.tableSchema := congrArg Prod.fst h5
    have e2 : t.tableName = c.tableName := congrArg Prod.snd h5
    rw [← e1, ← e2]
    exact ⟨fun _ => schema_plain he (Or.inr h4) hs.ok hd.ok, (he.tables t h4).name,
      ((he.tables t h4).constraints c (find_some h2).1).1⟩

end

end EngineSpec
