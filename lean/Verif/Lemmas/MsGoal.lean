import Verif.Lemmas.MsTableRuns
import Verif.Lemmas.MsPhases
import Verif.Props.PgConverges

/-!
# The database that a SQL Server migration leads to
-/

namespace MsSpec
open SqlSpec Sqddl DdlText Sqddl.Sqlserver
open EngineSpec hiding tab tab_some tab_mem hasTable_tab hasTableConstraint_tab mem_common_iff
open MsText (Act Differs)
open PgSpec (tab tab_some tab_mem hasTable_tab hasTableConstraint_tab mem_common_iff foreign_not_primary)
open CatalogSpec (keyConstraint foreignKey liveColumns liveConstraints liveIndexes hasColumn hasIndex
  hasConstraint commonTables TableOk liveTables liveSchemas hasTable hasSchema hasTableConstraint)

/-! ## Tables and constraints of catalogs -/

theorem table_schema_ne {c : Catalog} (hc : Described c) {t : Table} (h : t ∈ liveTables c) :
    t.tableSchema ≠ [] := by
  obtain ⟨s, hs, hi, ht, -⟩ := mem_liveTables.1 h
  rw [(hc.ok.ok s hs).schemaName t ht]
  exact hc.schemas s (List.mem_filter.2 ⟨hs, by simp [hi]⟩)

theorem tab_schema_ne {c : Catalog} (hc : Described c) {k : Key} {t : Table}
    (h : tab c k = some t) : k.1 ≠ [] := by
  obtain ⟨h1, rfl⟩ := tab_some h
  exact table_schema_ne hc h1

theorem mem_constraintsOf {c : Catalog} (hc : Described c) {p : Table → Constraint → Bool}
    {x : Constraint} (h : x ∈ constraintsOf c p) :
    ∃ t, tab c (x.tableSchema, x.tableName) = some t ∧ findCon t x.constraintName = some x ∧
      p t x = true := by
  obtain ⟨t, ht, hx⟩ := List.mem_flatMap.1 h
  obtain ⟨hx, hp⟩ := List.mem_filter.1 hx
  obtain ⟨e1, e2⟩ := hc.owned.constraints t ht x hx
  refine ⟨t, ?_, find?_self (nodup_constraints (liveTables_ok hc.ok ht)) hx, hp⟩
  rw [e1, e2]
  exact tab_mem hc.ok ht

theorem conKey_mem {c : Catalog} (hc : Described c) {p : Table → Constraint → Bool} {k : Key}
    {n : Str} : (k, n) ∈ (constraintsOf c p).map conKey ↔
      ∃ t x, tab c k = some t ∧ findCon t n = some x ∧ p t x = true := by
  constructor
  · intro h
    obtain ⟨x, hx, e⟩ := List.mem_map.1 h
    injection e with e1 e2
    subst e1 e2
    obtain ⟨t, h1, h2, h3⟩ := mem_constraintsOf hc hx
    exact ⟨t, x, h1, h2, h3⟩
  · rintro ⟨t, x, h1, h2, h3⟩
    obtain ⟨h4, rfl⟩ := tab_some h1
    obtain ⟨h5, rfl⟩ := find_some h2
    obtain ⟨e1, e2⟩ := hc.owned.constraints t h4 x h5
    refine List.mem_map.2 ⟨x, List.mem_flatMap.2 ⟨t, h4, List.mem_filter.2 ⟨h5, h3⟩⟩, ?_⟩
    rw [conKey, e1, e2]

theorem conKey_nodup {c : Catalog} (hc : Described c) (p : Table → Constraint → Bool) :
    ((constraintsOf c p).map conKey).Nodup := by
  rw [List.map_flatMap, List.flatMap_def, List.Nodup, List.pairwise_flatten]
  constructor
  · intro l hl
    obtain ⟨t, ht, rfl⟩ := List.mem_map.1 hl
    have h1 := nodup_filter (nodup_constraints (liveTables_ok hc.ok ht)) (p t)
    rw [List.pairwise_map]
    exact (List.pairwise_map.1 h1).imp fun h e => h (congrArg Prod.snd e)
  · rw [List.pairwise_map]
    have h1 := List.pairwise_map.1 (liveTables_nodup hc.ok)
    refine List.Pairwise.imp_of_mem ?_ h1
    rintro a b ha hb h x hx y hy rfl
    obtain ⟨x', hx', e⟩ := List.mem_map.1 hx
    obtain ⟨y', hy', e'⟩ := List.mem_map.1 hy
    have e1 := hc.owned.constraints a ha x' (List.mem_filter.1 hx').1
    have e2 := hc.owned.constraints b hb y' (List.mem_filter.1 hy').1
    apply h
    have e3 := congrArg Prod.fst (e.trans e'.symm)
    simp only [conKey, e1, e2] at e3
    exact e3

theorem hasSchema_ne {c : Catalog} (hc : Described c) {n : Str} (h : hasSchema c n = true) :
    n ≠ [] := by
  obtain ⟨s, h1, rfl⟩ := List.mem_map.1 (hasSchema_iff.1 h)
  exact hc.schemas s h1

theorem mem_schema_names {c : Catalog} (hc : Described c) (p : Str → Bool) {n : Str} :
    n ∈ ((liveSchemas c).filter fun s => s.schemaName != [] && p s.schemaName).map (·.schemaName) ↔
      hasSchema c n = true ∧ p n = true := by
  simp only [List.mem_map, List.mem_filter, Bool.and_eq_true, bne_iff_ne]
  constructor
  · rintro ⟨s, ⟨h1, _, h2⟩, rfl⟩
    exact ⟨hasSchema_iff.2 (List.mem_map.2 ⟨s, h1, rfl⟩), h2⟩
  · rintro ⟨h1, h2⟩
    have h3 := hasSchema_ne hc h1
    obtain ⟨s, h4, rfl⟩ := List.mem_map.1 (hasSchema_iff.1 h1)
    exact ⟨s, ⟨h4, h3, h2⟩, rfl⟩

theorem fullName_tables {c : Catalog} (hc : Described c) {cur : Str} {xs : List Table}
    (h : ∀ x ∈ xs, x ∈ liveTables c) :
    xs.map (fun x => key (fullName cur x.tableSchema x.tableName)) =
      xs.map fun x => (x.tableSchema, x.tableName) :=
  List.map_congr_left fun x hx => key_fullName (table_schema_ne hc (h x hx))

theorem fullName_map {c : Catalog} (hc : Described c) {cur : Str} {xs : List Constraint}
    (h : ∀ x ∈ xs, ∃ t, tab c (x.tableSchema, x.tableName) = some t) :
    xs.map (fun x => (key (fullName cur x.tableSchema x.tableName), x.constraintName)) =
      xs.map conKey := by
  refine List.map_congr_left fun x hx => ?_
  obtain ⟨t, ht⟩ := h x hx
  rw [key_fullName (tab_schema_ne hc ht)]

/-! ## Databases that are alike -/

section
variable {A B : Db} (h : Db.Alike A B)

include h

theorem has_alike {s n : Str} {o : Obj} (hh : Has A s n o) : Has B s n o := by
  cases o with
  | table =>
    obtain ⟨t, ht⟩ := hh
    obtain ⟨u, hu, _⟩ := h.some ht
    exact ⟨u, hu⟩
  | con a =>
    obtain ⟨t, c, ht, hc⟩ := hh
    obtain ⟨u, hu, hl⟩ := h.some ht
    exact ⟨u, c, hu, hl.con ▸ hc⟩

theorem foreign_alike {k : Key} {n : Str} {cs : List Str} {ref : Ref} (hh : Foreign A k n cs ref) :
    Foreign B k n cs ref := by
  obtain ⟨t, c, ht, hc, hk⟩ := hh
  obtain ⟨u, hu, hl⟩ := h.some ht
  exact ⟨u, c, hu, hl.con ▸ hc, hk⟩

theorem hasCol_alike {k : Key} {n : Str} (hh : HasCol A k n) : HasCol B k n := by
  obtain ⟨t, ht, hc⟩ := hh
  obtain ⟨u, hu, hl⟩ := h.some ht
  exact ⟨u, hu, hl.col n ▸ hc⟩

theorem target_alike {cs : List Str} {ref : Ref} (hh : Target A cs ref) : Target B cs ref := by
  obtain ⟨h1, r, hr, h2, ks, h3, h4⟩ := hh
  obtain ⟨u, hu, hl⟩ := h.some hr
  refine ⟨h1, u, hu, fun x hx => ?_, ks, h3, ?_⟩
  · rw [← hl.col]; exact h2 x hx
  · unfold TargetKey at h4 ⊢
    rw [← hl.con, ← hl.idx]
    exact h4

theorem consistent_alike (hc : Consistent A) : Consistent B where
  schema := by
    intro k t ht
    obtain ⟨u, hu, hl⟩ := h.symm.some ht
    rw [← h.schema]
    exact hc.schema k u hu
  named := by
    intro k t n c ht hn
    obtain ⟨u, hu, hl⟩ := h.symm.some ht
    exact hc.named k u n c hu (hl.con ▸ hn)
  con := by
    intro k t n c ht hn x hx
    obtain ⟨u, hu, hl⟩ := h.symm.some ht
    rw [hl.col]
    exact hc.con k u n c hu (hl.con ▸ hn) x hx
  idx := by
    intro k t n x ht hn
    obtain ⟨u, hu, hl⟩ := h.symm.some ht
    obtain ⟨h1, h2⟩ := hc.idx k u n x hu (hl.idx ▸ hn)
    exact ⟨fun y hy => by rw [hl.col]; exact h1 y hy, h2⟩
  primary := by
    intro k t n m c d cs ds ht hn hm
    obtain ⟨u, hu, hl⟩ := h.symm.some ht
    exact hc.primary k u n m c d cs ds hu (hl.con ▸ hn) (hl.con ▸ hm)
  fkey := fun k n cs ref hf => target_alike h (hc.fkey k n cs ref (foreign_alike h.symm hf))
  names := fun s n o o' h1 h2 => hc.names s n o o' (has_alike h.symm h1) (has_alike h.symm h2)
  keys := by
    intro k t n c x ht hn hx
    obtain ⟨u, hu, hl⟩ := h.symm.some ht
    exact hc.keys k u n c x hu (hl.con ▸ hn) (hl.idx ▸ hx)

theorem between_alike {S : Db} (hn : ∀ s n o o', Has S s n o → Has A s n o' → o = o')
    (hi : ∀ k s t n, S.table k = some s → A.table k = some t →
      (∀ x c, s.idx n = some x → t.con n = some c → EngineSpec.isKey c = false) ∧
      ∀ x c, t.idx n = some x → s.con n = some c → EngineSpec.isKey c = false) : Between S B where
  names := fun s n o o' h1 h2 => hn s n o o' h1 (has_alike h.symm h2)
  indexNames := by
    intro k s t n hs ht
    obtain ⟨u, hu, hl⟩ := h.symm.some ht
    rw [hl.con, hl.idx]
    exact hi k s u n hs hu

end

/-! ## The database that a migration leads to -/

/-- What the migration leads to. -/
def endDb (e : Env) (drop : Bool) (src dest : Catalog) : Db where
  schema s := hasSchema dest s || (!drop && hasSchema src s)
  table k :=
    match tab src k, tab dest k with
    | some s, some t => some (endTbl e drop s t)
    | some s, none => if drop then none else some (tblOf e.cur e.coll s)
    | none, t => t.map (tblOf e.cur e.coll)

section
variable {e : Env} {drop : Bool} {src dest : Catalog}

theorem srcDb_table (k : Key) :
    (dbOf e.cur e.coll src).table k = (tab src k).map (tblOf e.cur e.coll) := rfl

theorem end_src {k : Key} {s : Table} (h : tab src k = some s) :
    (endDb e drop src dest).table k = match tab dest k with
      | some t => some (endTbl e drop s t)
      | none => if drop then none else some (tblOf e.cur e.coll s) := by
  unfold endDb
  dsimp only
  rw [h]
  cases tab dest k <;> rfl

theorem end_new {k : Key} (h : tab src k = none) :
    (endDb e drop src dest).table k = (tab dest k).map (tblOf e.cur e.coll) := by
  unfold endDb
  dsimp only
  rw [h]

section
variable (hs : Described src) (hd : Described dest) (hc : Comparable e.cur e.coll drop src dest)

include hs hd hc in
theorem pairOk {p : Table × Table} (hp : p ∈ commonTables src dest) :
    PairOk e.cur e.coll drop p.1 p.2 where
  pair := hc.tables p hp
  src := liveTables_ok hs.ok (mem_commonTables hp).1
  dest := liveTables_ok hd.ok (mem_commonTables hp).2.1
  srcPrimary := hs.primary p.1 (mem_commonTables hp).1
  destPrimary := hd.primary p.2 (mem_commonTables hp).2.1
  srcNotNull := hs.notNull p.1 (mem_commonTables hp).1
  destNotNull := hd.notNull p.2 (mem_commonTables hp).2.1
  keyColumns := hd.keyColumns p.2 (mem_commonTables hp).2.1
  destTypes := hd.types p.2 (mem_commonTables hp).2.1
  srcTypes := hs.types p.1 (mem_commonTables hp).1
  identity := hd.identity p.2 (mem_commonTables hp).2.1
  same := by
    obtain ⟨k, h1, h2⟩ := (mem_common_iff hd.ok).1 hp
    have e1 := (tab_some h2).2.trans (tab_some h1).2.symm
    exact ⟨congrArg Prod.fst e1, congrArg Prod.snd e1⟩
  schema := table_schema_ne hd (mem_commonTables hp).2.1
  srcIndexes := hs.indexes p.1 (mem_commonTables hp).1
  destIndexes := hd.indexes p.2 (mem_commonTables hp).2.1

theorem endTbl_alike (s t : Table) :
    Tbl.Alike (goalTbl e.cur e.coll drop s t) (endTbl e drop s t) := by
  refine ⟨fun n => ?_, rfl, rfl⟩
  show (newer drop (((liveColumns s).find? fun x => x.columnName == n).map _)
    (((liveColumns t).find? fun x => x.columnName == n).map _)).isSome = (endCols e drop s t n).isSome
  unfold endCols
  cases (liveColumns s).find? (fun x => x.columnName == n) <;>
  cases (liveColumns t).find? (fun x => x.columnName == n) <;> cases drop <;> rfl

theorem endDb_alike : Db.Alike (goalDb e.cur e.coll drop src dest) (endDb e drop src dest) := by
  refine ⟨rfl, fun k => ?_⟩
  unfold goalDb endDb
  dsimp only
  cases h1 : tab src k with
  | none =>
    cases tab dest k with
    | none => trivial
    | some t => exact ⟨fun _ => rfl, rfl, rfl⟩
  | some s =>
    cases h2 : tab dest k with
    | none =>
      cases drop with
      | true => trivial
      | false => exact ⟨fun _ => rfl, rfl, rfl⟩
    | some t => exact endTbl_alike s t

include hs hd hc in
/-- A default at the end is one of the second version, or of a column that only the first one has. -/
theorem endDb_default {k : Key} {n : Str} (h : HasDefault (endDb e drop src dest) k n) :
    HasDefault (goalDb e.cur e.coll drop src dest) k n := by
  obtain ⟨t, x, h1, h2, h3⟩ := h
  unfold endDb at h1
  dsimp only at h1
  cases e1 : tab src k with
  | none =>
    refine ⟨t, x, ?_, h2, h3⟩
    unfold goalDb
    dsimp only
    rw [e1] at h1 ⊢
    exact h1
  | some s =>
    cases e2 : tab dest k with
    | none =>
      refine ⟨t, x, ?_, h2, h3⟩
      unfold goalDb
      dsimp only
      rw [e1, e2] at h1 ⊢
      exact h1
    | some u =>
      rw [e1, e2] at h1
      injection h1 with h1
      subst h1
      have hp := pairOk hs hd hc (p := (s, u)) ((mem_common_iff hd.ok).2 ⟨k, e1, e2⟩)
      have hg : (goalDb e.cur e.coll drop src dest).table k = some (goalTbl e.cur e.coll drop s u) := by
        unfold goalDb
        dsimp only
        rw [e1, e2]
      have h2 : endCols e drop s u n = some x := h2
      have hcol : (goalTbl e.cur e.coll drop s u).col n =
          newer drop (((liveColumns s).find? fun x => x.columnName == n).map (colOf .sqlserver e.coll false))
            (((liveColumns u).find? fun x => x.columnName == n).map (colOf .sqlserver e.coll false)) := rfl
      cases ea : (liveColumns s).find? (fun x => x.columnName == n) with
      | none =>
        refine ⟨_, x, hg, ?_, h3⟩
        rw [hcol, ea]
        unfold endCols at h2
        rw [ea] at h2
        dsimp only at h2
        rw [h2]; rfl
      | some a =>
        cases eb : (liveColumns u).find? (fun x => x.columnName == n) with
        | none =>
          refine ⟨_, x, hg, ?_, h3⟩
          rw [hcol, ea, eb]
          unfold endCols at h2
          rw [ea, eb] at h2
          cases drop with
          | true => cases h2
          | false => exact h2
        | some b =>
          refine ⟨_, colOf .sqlserver e.coll false b, hg, ?_, ?_⟩
          · rw [hcol, ea, eb]; rfl
          · have hal := hp.pair.columns _ (mem_common hp ea eb)
            have hb : b.columnDefault ≠ [] := by
              unfold endCols at h2
              rw [ea, eb] at h2
              injection h2 with h2
              cases e3 : columnsAreDifferent .sqlserver e.coll a b with
              | true =>
                rw [e3, if_pos rfl] at h2
                subst h2
                exact endCol_default hal h3
              | false =>
                rw [e3, if_neg (by decide)] at h2
                subst h2
                rw [colOf_default] at h3
                have h4 := sameDefault_nil (sameDefault hal.defaults.1 hal.defaults.2 (not_different e3).2.1)
                intro h5
                rw [if_pos (h4.2 h5)] at h3
                cases h3
            rw [colOf_default, if_neg hb]; rfl

include hs hd hc in
theorem endDb_reached : Reached e.cur e.coll drop src dest (endDb e drop src dest) where
  schema := rfl
  common := by
    intro p hp
    obtain ⟨k, h1, h2⟩ := (mem_common_iff hd.ok).1 hp
    have hk := (tab_some h2).2
    subst hk
    refine ⟨endTbl e drop p.1 p.2, ?_, rfl, rfl, fun n => ?_⟩
    · rw [end_src h1, h2]
    · have hok := pairOk hs hd hc hp
      have hcol : (goalTbl e.cur e.coll drop p.1 p.2).col n =
          newer drop (((liveColumns p.1).find? fun x => x.columnName == n).map (colOf .sqlserver e.coll false))
            (((liveColumns p.2).find? fun x => x.columnName == n).map (colOf .sqlserver e.coll false)) := rfl
      cases ea : (liveColumns p.1).find? (fun x => x.columnName == n) with
      | none =>
        left
        show endCols e drop p.1 p.2 n = _
        unfold endCols
        rw [hcol, ea]
        cases (liveColumns p.2).find? (fun x => x.columnName == n) <;> cases drop <;> rfl
      | some a =>
        cases eb : (liveColumns p.2).find? (fun x => x.columnName == n) with
        | none =>
          left
          show endCols e drop p.1 p.2 n = _
          unfold endCols
          rw [hcol, ea, eb]
          cases drop <;> rfl
        | some b =>
          right
          obtain ⟨c, h4, h5⟩ := endCols_reached hok ea eb
          exact ⟨a, (find_some ea).1, b, (find_some eb).1, c, (find_some ea).2, (find_some eb).2, h4, h5⟩
  other := by
    intro k hk
    unfold goalDb endDb
    dsimp only
    cases h1 : tab src k with
    | none => cases tab dest k <;> rfl
    | some s =>
      cases h2 : tab dest k with
      | none => rfl
      | some t =>
        exact absurd (tab_some h2).2 (hk (s, t) ((mem_common_iff hd.ok).2 ⟨k, h1, h2⟩))

theorem lacks_src {k : Key} {n : Str} (hs : CatalogSpec.Ok src) :
    lacks (dbOf e.cur e.coll src) k n = !hasTableConstraint src k.1 k.2 n := by
  unfold lacks
  rw [srcDb_table, hasTableConstraint_tab hs]
  cases tab src k with
  | none => rfl
  | some s =>
    simp only [Option.map_some, Option.bind_some, tblOf]
    cases (liveConstraints s).find? fun c => c.constraintName == n <;> rfl

theorem lacks_goal {k : Key} {n : Str} (hd : CatalogSpec.Ok dest) {s : Table} {x : Constraint}
    (h1 : tab src k = some s) (h2 : findCon s n = some x) (h3 : foreignKey x = true) :
    lacks (endDb e drop src dest) k n = (drop && !hasTableConstraint dest k.1 k.2 n) := by
  unfold lacks
  rw [end_src h1, hasTableConstraint_tab hd]
  cases tab dest k with
  | none =>
    cases drop with
    | true => rfl
    | false => simp [tblOf, h2]
  | some t =>
    show (goalCon e.cur drop s t n).isNone = _
    unfold goalCon
    rw [show (liveConstraints s).find? (fun c => c.constraintName == n) = some x from h2]
    dsimp only
    rw [foreign_not_primary h3]
    cases (liveConstraints t).find? fun c => c.constraintName == n <;> cases drop <;> rfl

theorem end_con {k : Key} {n : Str} {u : Tbl} {c : Con}
    (h1 : (endDb e drop src dest).table k = some u) (h2 : u.con n = some c) :
    (∃ t x, tab dest k = some t ∧ findCon t n = some x ∧ c = conOf .sqlserver e.cur x) ∨
    (∃ s x, tab src k = some s ∧ findCon s n = some x ∧ c = conOf .sqlserver e.cur x) := by
  cases e1 : tab src k with
  | none =>
    rw [end_new e1] at h1
    obtain ⟨t, h3, rfl⟩ := Option.map_eq_some_iff.1 h1
    obtain ⟨x, h4, rfl⟩ := Option.map_eq_some_iff.1 h2
    exact Or.inl ⟨t, x, h3, h4, rfl⟩
  | some s =>
    rw [end_src e1] at h1
    cases e2 : tab dest k with
    | none =>
      rw [e2] at h1
      dsimp only at h1
      split at h1
      · cases h1
      · injection h1 with h1
        subst h1
        obtain ⟨x, h4, rfl⟩ := Option.map_eq_some_iff.1 h2
        exact Or.inr ⟨s, x, rfl, h4, rfl⟩
    | some t =>
      rw [e2] at h1
      injection h1 with h1
      subst h1
      have h2 : goalCon e.cur drop s t n = some c := h2
      unfold goalCon at h2
      split at h2
      · rename_i x hx
        injection h2 with h2
        exact Or.inl ⟨t, x, rfl, hx, h2.symm⟩
      · split at h2
        · cases h2
        · rename_i x hx
          split at h2
          · cases h2
          · injection h2 with h2
            exact Or.inr ⟨s, x, rfl, hx, h2.symm⟩

theorem end_dest {k : Key} {t : Table} (h1 : tab dest k = some t) :
    ∃ u, (endDb e drop src dest).table k = some u ∧
      ∀ n x, findCon t n = some x → u.con n = some (conOf .sqlserver e.cur x) := by
  cases e1 : tab src k with
  | none =>
    rw [end_new e1, h1]
    refine ⟨_, rfl, fun n x h => ?_⟩
    show (findCon t n).map _ = _
    rw [h]; rfl
  | some s =>
    rw [end_src e1, h1]
    refine ⟨_, rfl, fun n x h => ?_⟩
    show goalCon e.cur drop s t n = _
    unfold goalCon
    rw [show (liveConstraints t).find? (fun c => c.constraintName == n) = some x from h]

include hs hd hc in
/-- Constraints of the same name are the same. -/
theorem end_same {k : Key} {s t : Tbl} {n : Str} {c d : Con}
    (h1 : (dbOf e.cur e.coll src).table k = some s) (h2 : (endDb e drop src dest).table k = some t)
    (h3 : s.con n = some c) (h4 : t.con n = some d) : c = d := by
  rw [srcDb_table] at h1
  obtain ⟨s', e1, rfl⟩ := Option.map_eq_some_iff.1 h1
  obtain ⟨x, e2, rfl⟩ := Option.map_eq_some_iff.1 h3
  rcases end_con h2 h4 with ⟨t', y, e3, e4, rfl⟩ | ⟨s'', y, e3, e4, rfl⟩
  · have hp := pairOk hs hd hc (p := (s', t')) ((mem_common_iff hd.ok).2 ⟨k, e1, e3⟩)
    exact same_con hp e2 e4
  · rw [e1] at e3
    injection e3 with e3
    subst e3
    have e5 := e2.symm.trans e4
    injection e5 with e5
    rw [e5]

end
end
end MsSpec
