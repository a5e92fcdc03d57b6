import Verif.Props.MsSample
import Verif.Props.PgFkeys
import Verif.Lemmas.MsFkeys
import Verif.Spec.MsFkeys

/-!
# The foreign keys that the files of a SQL Server migration add and drop (C37)
-/

namespace Sqddl.Sqlserver
open Go SqlSpec CatalogSpec Sqddl.Files MsText
open DdlText hiding fkeysAdded consDropped
open PgText (newFkeys goneFkeys Owned)
open EngineSpec (flatMap_nil' flatMap_singleton' isForeign_conOf)
open Postgres (flatMap_filter_ite newFkeys_owner goneFkeys_owner)

/-! ## The events -/

theorem columns_differ {coll : Str} {a b : Column}
    (h : columnsAreDifferent .sqlserver coll a b = true) : Differs a b := by
  unfold Differs
  false_or_by_contra
  rename_i hn
  simp only [ne_eq, not_or, Decidable.not_not] at hn
  obtain ⟨h1, h2, h3, h4⟩ := hn
  unfold columnsAreDifferent at h
  simp [h1, h2, h3, h4] at h

theorem mem_constraintDeps {e : DiffEnv} {s t : Table} {col : Str} {c : Constraint}
    (h : c ∈ mssqlConstraintDeps e s t col) : c ∈ liveConstraints s ∧ col ∈ c.columns ∧
      (e.dropObjects = true → (e.destCache.getConstraint t c.constraintName).toOption.isSome) := by
  unfold mssqlConstraintDeps at h
  obtain ⟨p, hp, rfl⟩ := List.mem_map.1 h
  obtain ⟨hp, hd⟩ := List.mem_filter.1 hp
  obtain ⟨q, hq, hp⟩ := List.mem_flatMap.1 hp
  split at hp
  · cases hp
  · rename_i hi
    obtain ⟨x, hx, rfl⟩ := List.mem_map.1 hp
    obtain ⟨hx, hxe⟩ := List.mem_filter.1 hx
    have hm : q.1 ∈ s.constraints := by
      obtain ⟨_, _, hq⟩ := List.mem_zipIdx hq
      exact hq ▸ List.getElem_mem _
    refine ⟨List.mem_filter.2 ⟨hm, by simpa using hi⟩, ?_, ?_⟩
    · have : x = col := by simpa using hxe
      exact this ▸ hx
    · intro hdrop
      simp only [mssqlDroppedConstraint, hdrop, Bool.true_and, Bool.not_eq_true', Bool.or_eq_false_iff] at hd
      have h1 := hd.1
      have h2 : q.1.ignore = false := by simpa using hi
      rw [h2] at h1
      simpa using h1

section
variable {src dest : Catalog} (hsrc : Ok src) (hdest : Ok dest) (drop : Bool)
include hsrc hdest

theorem addFastFkeys_ms :
    (mssqlEvents src dest drop).filterMap Ev.addFastFkey? = (newFkeys src dest false).map (·.2) := by
  have hd : Server .sqlserver := by simp [Server]
  have := filterMap_walk_tables Ev.addFastFkey? hsrc hdest drop
    (Sqddl.alterOf .sqlserver (diffEnv src dest drop)) (fun _ => rfl) (fun _ => rfl) (fun _ => rfl) (fun _ => rfl)
  show (diffEvents .sqlserver src dest drop).filterMap Ev.addFastFkey? = _
  rw [diffEvents_walk hd, this, newFkeys, List.map_flatMap, flatMap_filter_ite]
  refine flatMap_congr' fun t ht => ?_
  rw [hasTable_eq, tableStep]
  simp only [hasTableConstraint_eq hsrc]
  cases h : findTable src t.tableSchema t.tableName with
  | none =>
    have hf : (diffEnv src dest drop).destCache.getForeignKeys t = _ :=
      getForeignKeys_live hdest (inCatalog_live ht)
    rw [createTableEvents, List.filterMap_cons, List.filterMap_map, hf]
    simp [Ev.addFastFkey?, Function.comp_def]
  | some s =>
    simp only [Option.isSome_some, Sqddl.alterOf, mssqlAlter, List.filterMap_append,
        List.filterMap_map, alterEvents, Function.comp_def, Ev.addFastFkey?, filterMap_none',
        List.nil_append]
    split <;> simp [Ev.addFastFkey?]

theorem addFkeys_ms :
    (mssqlEvents src dest drop).filterMap Ev.addFkey? = (newFkeys src dest true).map (·.2) := by
  have hd : Server .sqlserver := by simp [Server]
  have := filterMap_walk_tables Ev.addFkey? hsrc hdest drop
    (Sqddl.alterOf .sqlserver (diffEnv src dest drop)) (fun _ => rfl) (fun _ => rfl) (fun _ => rfl) (fun _ => rfl)
  show (diffEvents .sqlserver src dest drop).filterMap Ev.addFkey? = _
  rw [diffEvents_walk hd, this, newFkeys, List.map_flatMap, flatMap_filter_ite]
  refine flatMap_congr' fun t ht => ?_
  rw [hasTable_eq, tableStep]
  simp only [hasTableConstraint_eq hsrc]
  cases h : findTable src t.tableSchema t.tableName with
  | none =>
    have hf : (diffEnv src dest drop).destCache.getForeignKeys t = _ :=
      getForeignKeys_live hdest (inCatalog_live ht)
    rw [createTableEvents, List.filterMap_cons, List.filterMap_map, hf]
    simp [Ev.addFkey?, Function.comp_def, filterMap_none']
  | some s =>
    have hs := inCatalog_live (List.mem_of_find?_eq_some h)
    have hm : ((missingConstraints (newCatalogCache src) s t).filter isFkey) =
        (liveConstraints t).filter fun c => foreignKey c && !hasConstraint s c.constraintName := by
      rw [missingConstraints_eq hsrc hs, List.filter_filter]
      simp only [isFkey_eq]
    simp only [Option.isSome_some, beq_self_eq_true, if_true]
    rw [List.map_map, show ((fun x : Table × Constraint => x.2) ∘ fun c => (t, c)) = id from rfl, List.map_id]
    rw [← hm]
    have he : (diffEnv src dest drop).srcCache = newCatalogCache src := rfl
    simp only [Sqddl.alterOf, mssqlAlter, List.filterMap_append,
        List.filterMap_map, alterEvents, Function.comp_def, Ev.addFkey?, filterMap_none',
        List.nil_append, he]
    split <;> simp [Ev.addFkey?]

theorem dropFkeys_ms :
    ((mssqlEvents src dest drop).filterMap Ev.dropFkey?).Perm
      (if drop then (goneFkeys src dest).map (·.2) else []) := by
  have := dropFkeys_exact (d := .sqlserver) (by simp [Server]) hsrc hdest drop
  refine this.trans (List.Perm.of_eq ?_)
  cases drop with
  | false => rfl
  | true =>
    rw [if_pos rfl, if_pos rfl, goneFkeys, List.map_flatMap]
    refine flatMap_congr' fun t _ => ?_
    rw [List.map_map]
    exact (List.map_id _).symm

/-- The foreign keys of two versions of a table that are dropped and added again. -/
def redoneOf (e : DiffEnv) (p : Table × Table) : List Constraint :=
  (mssqlAlterColumns e p.1 p.2).flatMap fun q =>
    (mssqlConstraintDeps e p.1 p.2 q.1.columnName).filter isFkey

theorem redo_ms : (mssqlEvents src dest drop).filterMap Ev.redo? =
    (commonTables src dest).flatMap (redoneOf (diffEnv src dest drop)) := by
  have hd : Server .sqlserver := by simp [Server]
  have := filterMap_walk_tables Ev.redo? hsrc hdest drop
    (Sqddl.alterOf .sqlserver (diffEnv src dest drop)) (fun _ => rfl) (fun _ => rfl) (fun _ => rfl) (fun _ => rfl)
  show (diffEvents .sqlserver src dest drop).filterMap Ev.redo? = _
  rw [diffEvents_walk hd, this, commonTables]
  generalize liveTables dest = ts
  induction ts with
  | nil => rfl
  | cons t ts ih =>
    rw [List.flatMap_cons, ih, List.filterMap_cons, tableStep, findTable]
    generalize (liveTables src).find? (fun s : Table =>
      s.tableSchema == t.tableSchema && s.tableName == t.tableName) = o
    cases o with
    | none =>
      simp only [Option.map_none]
      rw [createTableEvents, List.filterMap_cons, List.filterMap_map]
      simp [Ev.redo?, Function.comp_def, filterMap_none']
    | some s =>
      simp only [Option.map_some, List.flatMap_cons]
      congr 1
      simp only [Sqddl.alterOf, mssqlAlter, List.filterMap_append,
        List.filterMap_map, alterEvents, Function.comp_def, Ev.redo?, filterMap_none',
        List.nil_append]
      rw [show (fun x : Constraint => some x) = some from rfl, List.filterMap_some]
      split <;> simp [Ev.redo?, redoneOf]

theorem mem_alterColumns {p : Table × Table} (hp : p ∈ commonTables src dest) {q : Column × Column}
    (hq : q ∈ mssqlAlterColumns (diffEnv src dest drop) p.1 p.2) :
    q ∈ CatalogSpec.commonColumns p.1 p.2 ∧ Differs q.1 q.2 := by
  obtain ⟨h1, h2⟩ := List.mem_filter.1 hq
  have h1 : q ∈ Sqddl.commonColumns (newCatalogCache src) p.1 p.2 := h1
  rw [commonColumns_eq hsrc (inCatalog_live (mem_commonTables hp).1)] at h1
  exact ⟨h1, columns_differ h2⟩

theorem mem_redoneOf {p : Table × Table} (hp : p ∈ commonTables src dest) {c : Constraint}
    (hc : c ∈ redoneOf (diffEnv src dest drop) p) : Redone drop p c := by
  obtain ⟨q, hq, hc⟩ := List.mem_flatMap.1 hc
  obtain ⟨hc, hf⟩ := List.mem_filter.1 hc
  obtain ⟨h1, h2⟩ := mem_alterColumns hsrc hdest drop hp hq
  obtain ⟨h3, h4, h5⟩ := mem_constraintDeps hc
  refine ⟨h3, by rw [← isFkey_eq]; exact hf, fun hd => ?_, q, h1, h2, h4⟩
  have h5 : ((newCatalogCache dest).getConstraint p.2 c.constraintName).toOption.isSome := h5 hd
  obtain ⟨sc, hsc, ht⟩ := inCatalog_live (mem_commonTables hp).2.1
  rw [getConstraint_find hdest hsc ht] at h5
  rw [hasConstraint, List.any_eq_true]
  obtain ⟨x, hx⟩ := Option.isSome_iff_exists.1 h5
  exact ⟨x, List.mem_of_find?_eq_some hx, by simpa using List.find?_some hx⟩

/-- With the tables that they belong to. -/
def redone (e : DiffEnv) (src dest : Catalog) : List (Table × Constraint) :=
  (commonTables src dest).flatMap fun p => (redoneOf e p).map fun c => (p.1, c)

omit hsrc hdest in
theorem filter_one {x : Str} {cols : List Str} (h : cols.Nodup) :
    (cols.filter (· = x)).Pairwise fun _ _ => False := by
  rw [List.pairwise_filter]
  refine List.Pairwise.imp ?_ h
  intro a b hab ha hb
  have ha : a = x := by simpa using ha
  have hb : b = x := by simpa using hb
  exact hab (ha.trans hb.symm)

theorem redoneOf_nodup {p : Table × Table} (hp : p ∈ commonTables src dest)
    (h : ∀ c ∈ liveConstraints p.1, foreignKey c = true → OneDiffers p c.columns) :
    (redoneOf (diffEnv src dest drop) p).Nodup := by
  have hl := (mem_commonTables hp).1
  obtain ⟨sc, hsc, ht⟩ := inCatalog_live hl
  have hok := (hsrc.ok sc hsc).ok p.1 ht
  obtain ⟨sd, hsd, htd⟩ := inCatalog_live (mem_commonTables hp).2.1
  have hokd := (hdest.ok sd hsd).ok p.2 htd
  unfold redoneOf List.Nodup
  rw [List.pairwise_flatMap]
  constructor
  · intro q hq
    unfold mssqlConstraintDeps
    rw [List.pairwise_filter, List.pairwise_map, List.pairwise_filter, List.pairwise_flatMap]
    constructor
    · intro c hc
      split
      · exact .nil
      · rename_i hi
        rw [List.pairwise_map]
        have hm : c.1 ∈ p.1.constraints := by
          obtain ⟨_, _, hc⟩ := List.mem_zipIdx hc
          exact hc ▸ List.getElem_mem _
        by_cases hf : isFkey c.1 = true
        · refine List.Pairwise.imp ?_ (filter_one (h c.1 (List.mem_filter.2 ⟨hm, by simpa using hi⟩)
            (by rw [← isFkey_eq]; exact hf)).1)
          intro a b hab
          exact hab.elim
        · exact List.pairwise_of_forall fun a b _ _ h => absurd h hf
    · have hz : (p.1.constraints.zipIdx.map (·.1)).Nodup := by
        rw [List.zipIdx_map_fst]
        exact List.Pairwise.of_map _ (fun a b hab e => hab (congrArg _ e)) hok.constraints
      have hz := List.pairwise_map.1 hz
      refine List.Pairwise.imp ?_ hz
      intro a b hab x hx y hy _ _ _ _ e
      split at hx
      · cases hx
      · split at hy
        · cases hy
        · obtain ⟨_, _, rfl⟩ := List.mem_map.1 hx
          obtain ⟨_, _, rfl⟩ := List.mem_map.1 hy
          exact hab e
  · have hn : ((mssqlAlterColumns (diffEnv src dest drop) p.1 p.2).map fun q => q.1.columnName).Nodup := by
      have h1 : mssqlAlterColumns (diffEnv src dest drop) p.1 p.2 =
          (CatalogSpec.commonColumns p.1 p.2).filter fun q =>
            columnsAreDifferent .sqlserver src.defaultCollation q.1 q.2 := by
        unfold mssqlAlterColumns changedColumns
        rw [show (diffEnv src dest drop).srcCache = newCatalogCache src from rfl,
          commonColumns_eq hsrc (inCatalog_live hl)]
        rfl
      rw [h1]
      refine List.Nodup.sublist (List.filter_sublist.map _) ?_
      have h2 : (CatalogSpec.commonColumns p.1 p.2).map (fun q => q.1.columnName) =
          (CatalogSpec.commonColumns p.1 p.2).map fun q => q.2.columnName := by
        refine List.map_congr_left fun q hq => ?_
        simp only [CatalogSpec.commonColumns, List.mem_filterMap, Option.map_eq_some_iff] at hq
        obtain ⟨x, hx, y, hy, rfl⟩ := hq
        simpa using List.find?_some hy
      rw [h2]
      have h3 : ((CatalogSpec.commonColumns p.1 p.2).map fun q => q.2).Sublist (liveColumns p.2) := by
        unfold CatalogSpec.commonColumns
        generalize liveColumns p.2 = xs
        induction xs with
        | nil => exact .slnil
        | cons x xs ih =>
          rw [List.filterMap_cons]
          cases (liveColumns p.1).find? (fun s => s.columnName == x.columnName) with
          | none => exact ih.cons _
          | some y => exact ih.cons_cons _
      have h4 : (p.2.columns.map (·.columnName)).Nodup := hokd.columns
      have h5 := (h3.trans List.filter_sublist).map (·.columnName)
      rw [List.map_map] at h5
      exact h4.sublist h5
    refine List.Pairwise.imp_of_mem ?_ (List.pairwise_map.1 hn)
    intro q q' hq hq' hne c hc c' hc' e
    subst e
    obtain ⟨hc, hf⟩ := List.mem_filter.1 hc
    obtain ⟨hc', -⟩ := List.mem_filter.1 hc'
    obtain ⟨h1, h2⟩ := mem_alterColumns hsrc hdest drop hp hq
    obtain ⟨h3, h4⟩ := mem_alterColumns hsrc hdest drop hp hq'
    obtain ⟨h5, h6, -⟩ := mem_constraintDeps hc
    obtain ⟨-, h7, -⟩ := mem_constraintDeps hc'
    exact hne ((h c h5 (by rw [← isFkey_eq]; exact hf)).2 q h1 q' h3 h2 h4 h6 h7)

theorem redone_nodup (h : OneColumn src dest) : (redone (diffEnv src dest drop) src dest).Nodup := by
  unfold redone List.Nodup
  rw [List.pairwise_flatMap]
  constructor
  · intro p hp
    rw [List.pairwise_map]
    refine List.Pairwise.imp ?_ (redoneOf_nodup hsrc hdest drop hp (h p hp))
    intro a b hab e
    exact hab (Prod.mk.inj e).2
  · have h1 : ((commonTables src dest).map (·.2)).Sublist (liveTables dest) := by
      unfold commonTables
      generalize liveTables dest = xs
      induction xs with
      | nil => exact .slnil
      | cons x xs ih =>
        rw [List.filterMap_cons]
        cases (liveTables src).find? (fun s => s.tableSchema == x.tableSchema && s.tableName == x.tableName) with
        | none => exact ih.cons _
        | some y => exact ih.cons_cons _
    have h2 := (liveTables_nodup hdest).sublist (h1.map _)
    rw [List.map_map] at h2
    refine List.Pairwise.imp_of_mem ?_ (List.pairwise_map.1 h2)
    intro p p' hp hp' hne x hx y hy e
    subst e
    obtain ⟨c, _, rfl⟩ := List.mem_map.1 hx
    obtain ⟨c', _, e⟩ := List.mem_map.1 hy
    obtain ⟨e, -⟩ := Prod.mk.inj e
    have h3 := (mem_commonTables hp).2.2
    have h4 := (mem_commonTables hp').2.2
    refine hne ?_
    simp only [Function.comp]
    rw [← h3.1, ← h3.2, ← h4.1, ← h4.2, e]

omit hsrc hdest in
theorem getTablesId_ends {c d : Constraint} (h : getTablesId c = getTablesId d) :
    ends c = ends d ∨ ends c = (ends d).swap := by
  unfold ends
  rcases getTablesId_cases c with h1 | h1 <;> rcases getTablesId_cases d with h2 | h2 <;>
    rw [h1, h2] at h <;> simp only [Prod.mk.injEq] at h <;> obtain ⟨a, b, c, d⟩ := h <;>
    simp [a, b, c, d]

/-- The foreign keys that are added and dropped, as they are grouped. -/
theorem groups_ms (h : Apart drop src dest) : ∃ fk,
    mssqlFkeys (mssqlEvents src dest drop) = some fk ∧
    fk.dropFkeys.groups.flatten.Perm ((if drop then (goneFkeys src dest).map (·.2) else []) ++
      (redone (diffEnv src dest drop) src dest).map (·.2)) ∧
    fk.addFastFkeys.groups.flatten.Perm ((newFkeys src dest false).map (·.2)) ∧
    fk.addFkeys.groups.flatten.Perm ((newFkeys src dest true).map (·.2) ++
      (redone (diffEnv src dest drop) src dest).map (·.2)) := by
  have hr : (mssqlEvents src dest drop).filterMap Ev.redo? =
      (redone (diffEnv src dest drop) src dest).map (·.2) := by
    rw [redo_ms hsrc hdest, redone, List.map_flatMap]
    refine flatMap_congr' fun p _ => ?_
    rw [List.map_map]
    exact (List.map_id _).symm
  obtain ⟨m, h1, h2⟩ := mssqlFkeys_grouped (mssqlEvents src dest drop) (by
    intro c hc d hd e
    rw [redo_ms hsrc hdest] at hc
    rw [addFkeys_ms hsrc hdest] at hd
    obtain ⟨p, hp, hc⟩ := List.mem_flatMap.1 hc
    obtain ⟨g, hg, rfl⟩ := List.mem_map.1 hd
    have hr := mem_redoneOf hsrc hdest drop hp hc
    obtain ⟨h1, h2⟩ := h p hp c hr.mem hr.fkey hr.stays hr.column g hg
    rcases getTablesId_ends e with e | e
    · exact h1 e
    · exact h2 e)
  refine ⟨m, h1, ?_, ?_, ?_⟩
  · have := h2.drop
    rw [hr] at this
    exact this.trans ((dropFkeys_ms hsrc hdest drop).append_right _)
  · have := h2.fast
    rwa [addFastFkeys_ms hsrc hdest] at this
  · have := h2.add
    rwa [hr, addFkeys_ms hsrc hdest] at this

end

/-! ## The statements -/

theorem kind_foreign {cur : Str} {c : Constraint} {n : DdlText.Name}
    (h : c.constraintType = b!"FOREIGN KEY") :
    fkeysAdded (.alter n (.addConstraint (conOf .sqlserver cur c))) =
      [(n, conOf .sqlserver cur c)] := by
  have h' := isForeign_conOf .sqlserver cur c
  rw [decide_eq_true h] at h'
  unfold Con.isForeign at h'
  unfold fkeysAdded
  cases hk : (conOf .sqlserver cur c).kind <;> simp [hk] at h' ⊢

theorem kind_other {cur : Str} {c : Constraint} (h : c.constraintType ≠ b!"FOREIGN KEY")
    {α : Type} (a : α) :
    (match (conOf .sqlserver cur c).kind with
      | .foreign _ _ => some a
      | _ => none) = none := by
  have h' := isForeign_conOf .sqlserver cur c
  rw [decide_eq_false h] at h'
  unfold Con.isForeign at h'
  cases hk : (conOf .sqlserver cur c).kind <;> simp [hk] at h' ⊢

theorem kind_other' {cur : Str} {c : Constraint} {n : DdlText.Name}
    (h : c.constraintType ≠ b!"FOREIGN KEY") :
    fkeysAdded (.alter n (.addConstraint (conOf .sqlserver cur c))) = [] := by
  have h' := isForeign_conOf .sqlserver cur c
  rw [decide_eq_false h] at h'
  unfold Con.isForeign at h'
  unfold fkeysAdded
  cases hk : (conOf .sqlserver cur c).kind <;> simp [hk] at h' ⊢

theorem createTable_fkeys (e : Env) (t : Table) :
    fkeysAdded (.base (createTableOf .sqlserver e.cur e.coll true t)) = [] := by
  unfold createTableOf fkeysAdded
  dsimp only
  rw [List.filterMap_append, List.append_eq_nil_iff, List.filterMap_map, List.filterMap_map]
  constructor
  · rw [List.filterMap_eq_nil_iff]; intro c _; rfl
  · rw [List.filterMap_eq_nil_iff]
    intro c hc
    have h : c.constraintType ≠ b!"FOREIGN KEY" := by
      have := (List.mem_filter.1 hc).2
      simpa using this
    exact kind_other h _

/-- What a schema that is dropped and a table that is created do not do. -/
theorem dropSchemaOf_fkeys (e : Env) (s : Schema) :
    ∀ st ∈ dropSchemaOf e s, fkeysAdded st = [] ∧ consDropped st = [] := by
  intro st h
  simp only [dropSchemaOf, List.mem_append, List.mem_map, List.mem_singleton] at h
  rcases h with ((⟨_, _, rfl⟩ | ⟨_, _, rfl⟩) | ⟨_, _, rfl⟩) | rfl <;> exact ⟨rfl, rfl⟩

theorem createOf_fkeys (e : Env) (t : Table) :
    ∀ st ∈ createOf e t, fkeysAdded st = [] ∧ consDropped st = [] := by
  intro st h
  rcases List.mem_cons.1 h with rfl | h
  · exact ⟨createTable_fkeys e t, rfl⟩
  · obtain ⟨x, -, rfl⟩ := List.mem_map.1 h
    exact ⟨rfl, rfl⟩

theorem columnOf_fkeys (e : Env) (t : Table) (p : Column × Column) :
    ∀ st ∈ columnOf e t p, fkeysAdded st = [] ∧ consDropped st = [] := by
  intro st h
  simp only [columnOf, typeActs, defaultOf, List.mem_append, List.mem_map] at h
  rcases h with ⟨a, ha, rfl⟩ | h
  · split at ha
    · rw [List.mem_singleton] at ha; subst ha; exact ⟨rfl, rfl⟩
    · cases ha
  · split at h
    · cases h
    · rcases List.mem_append.1 h with h | h <;> split at h
      · rw [List.mem_singleton] at h; subst h; exact ⟨rfl, rfl⟩
      · cases h
      · rw [List.mem_singleton] at h; subst h; exact ⟨rfl, rfl⟩
      · cases h

theorem alterOf_fkeys (e : Env) (a : AlterTable)
    (h : ∀ c ∈ a.addConstraints, c.constraintType ≠ b!"FOREIGN KEY") :
    ∀ st ∈ alterOf e a, fkeysAdded st = [] := by
  intro st hst
  simp only [alterOf, alterFileOf, List.mem_append, List.mem_map, List.mem_flatMap] at hst
  rcases hst with ((((((⟨_, _, rfl⟩ | ⟨_, _, rfl⟩) | ⟨_, _, rfl⟩) | ⟨_, _, rfl⟩) | ⟨p, _, h1⟩) |
    ⟨_, _, rfl⟩) | ⟨c, hc, rfl⟩)
  · rfl
  · rfl
  · rfl
  · rfl
  · exact (columnOf_fkeys e _ p st h1).1
  · rfl
  · exact kind_other' (h c hc)

theorem alterOf_dropped (e : Env) (a : AlterTable) : (alterOf e a).flatMap consDropped =
    a.dropConstraints.map fun c =>
      (fullName e.cur (alterSchema e a.destTable) a.destTable.tableName, c.constraintName) := by
  unfold alterOf alterFileOf
  simp only [List.flatMap_append]
  rw [flatMap_nil' (f := consDropped) (xs := a.dropIndexes.map _) fun st hst => by
      obtain ⟨x, -, rfl⟩ := List.mem_map.1 hst; rfl,
    flatMap_nil' (f := consDropped) (xs := a.dropColumns.map _) fun st hst => by
      obtain ⟨x, -, rfl⟩ := List.mem_map.1 hst; rfl,
    flatMap_nil' (f := consDropped) (xs := a.addColumns.map _) fun st hst => by
      obtain ⟨x, -, rfl⟩ := List.mem_map.1 hst; rfl,
    flatMap_nil' (f := consDropped) (xs := a.alterColumns.flatMap _) fun st hst => by
      obtain ⟨p, -, hst⟩ := List.mem_flatMap.1 hst
      exact (columnOf_fkeys e _ p st hst).2,
    flatMap_nil' (f := consDropped) (xs := a.createIndexes.map _) fun st hst => by
      obtain ⟨x, -, rfl⟩ := List.mem_map.1 hst; rfl,
    flatMap_nil' (f := consDropped) (xs := a.addConstraints.map _) fun st hst => by
      obtain ⟨x, -, rfl⟩ := List.mem_map.1 hst; rfl]
  simp only [List.nil_append, List.append_nil]
  rw [List.flatMap_map, ← flatMap_singleton']
  exact flatMap_congr' fun c _ => rfl

section
variable {src dest : Catalog} (hsrc : Ok src) (hdest : Ok dest) (drop : Bool)
include hsrc hdest

theorem dropped_key {p : Table × Table} (hp : p ∈ commonTables src dest) {c : Constraint}
    (hc : c ∈ (mssqlAlterTable (diffEnv src dest drop) p.1 p.2).dropConstraints) :
    c ∈ liveConstraints p.1 ∧ keyConstraint c = true := by
  simp only [mssqlAlterTable, whenDrop] at hc
  rcases List.mem_append.1 hc with hc | hc
  · rcases List.mem_append.1 hc with hc | hc
    · split at hc
      · have := surplusConstraints_eq hdest (inCatalog_live (mem_commonTables hp).2.1) p.1
        obtain ⟨h1, h2⟩ := List.mem_filter.1 hc
        have h1 : c ∈ surplusConstraints (newCatalogCache dest) p.1 p.2 := h1
        rw [this] at h1
        exact ⟨(List.mem_filter.1 h1).1, by rw [← isKey_eq]; exact h2⟩
      · cases hc
    · rw [Option.mem_toList, Option.bind_eq_some_iff] at hc
      obtain ⟨i, hi, hc⟩ := hc
      unfold mssqlReplacedPkeyPos at hi
      split at hi
      · rename_i s t hs ht
        split at hi
        · obtain ⟨sc, hsc, ht⟩ := inCatalog_live (mem_commonTables hp).1
          have hs' : ((newCatalogCache src).getPrimaryKey p.1).toOption = some c := by
            have hi : (newCatalogCache src).pkeys.get (p.1.tableSchema, p.1.tableName) = some i := hi
            simp only [CatalogCache.getPrimaryKey, hi, getAt, hc]
            have hs : ((newCatalogCache src).getPrimaryKey p.1).toOption = some s := hs
            simp only [CatalogCache.getPrimaryKey, hi, getAt, hc] at hs
            split at hs <;> simp_all [Got.toOption]
          obtain ⟨h1, h2, h3⟩ := getPrimaryKey_mem hsrc hsc ht hs'
          exact ⟨List.mem_filter.2 ⟨h1, by rw [h3]; rfl⟩, by
            rw [← isKey_eq, isKey, h2]; decide⟩
        · cases hi
      · cases hi
  · obtain ⟨q, -, hc⟩ := List.mem_flatMap.1 hc
    obtain ⟨hc, hk⟩ := List.mem_filter.1 hc
    exact ⟨(mem_constraintDeps hc).1, by rw [← isKey_eq]; exact hk⟩

omit hsrc hdest in
theorem added_key {p : Table × Table} {c : Constraint}
    (hc : c ∈ (mssqlAlterTable (diffEnv src dest drop) p.1 p.2).addConstraints) :
    c.constraintType ≠ b!"FOREIGN KEY" := by
  have hk : isKey c = true := by
    simp only [mssqlAlterTable] at hc
    rcases List.mem_append.1 hc with hc | hc
    · exact (List.mem_filter.1 hc).2
    · obtain ⟨q, -, hc⟩ := List.mem_flatMap.1 hc
      exact (List.mem_filter.1 hc).2
  intro e
  rw [isKey, e] at hk
  revert hk
  decide

/-- C37, SQL Server: which foreign keys the statements of a migration add and drop.  Added are
exactly those that the source does not have, and the `redone`: foreign keys that stay, and have a
column whose definition changes.  Dropped are, with dropObjects, exactly those that the destination
does not have, and the `redone`; what is dropped besides are keys of the tables that stay.  Each is
added to and dropped from the table that it belongs to; and once, if not more than one of its columns
changes.

Missing: foreign keys between two tables where one is added and one has a column that changes, see
`ms_fkeys_panic_refuted` and `ms_fkey_lost_refuted`; and those that have two columns that change, see
`ms_fkey_twice_refuted`. -/
theorem ms_fkeys_partial (os : Owned src) (od : Owned dest) (e : Env) (h : Apart drop src dest) :
    ∃ fk redone, mssqlFkeys (mssqlEvents src dest drop) = some fk ∧
      (∀ f ∈ redone, ∃ p ∈ commonTables src dest, f.1 = p.1 ∧ Redone drop p f.2) ∧
      (OneColumn src dest → redone.Nodup) ∧
      ((plan e (mssqlEvents src dest drop) fk).flatMap fkeysAdded).Perm
        ((newFkeys src dest false ++ newFkeys src dest true ++ redone).map fun f =>
          (fullName e.cur f.1.tableSchema f.1.tableName, conOf .sqlserver e.cur f.2)) ∧
      ∃ rest, ((plan e (mssqlEvents src dest drop) fk).flatMap consDropped).Perm
          (((if drop then goneFkeys src dest else []) ++ redone).map (fun f =>
            (fullName e.cur f.1.tableSchema f.1.tableName, f.2.constraintName)) ++ rest) ∧
        ∀ x ∈ rest, ∃ p ∈ commonTables src dest, ∃ k ∈ liveConstraints p.1, keyConstraint k = true ∧
          x = (fullName e.cur (schemaOr e.cur p.2.tableSchema) p.2.tableName, k.constraintName) := by
  obtain ⟨fk, h1, h2, h3, h4⟩ := groups_ms hsrc hdest drop h
  have hr : ∀ f ∈ redone (diffEnv src dest drop) src dest, ∃ p ∈ commonTables src dest,
      f.1 = p.1 ∧ Redone drop p f.2 := by
    intro f hf
    obtain ⟨p, hp, hf⟩ := List.mem_flatMap.1 hf
    obtain ⟨c, hc, rfl⟩ := List.mem_map.1 hf
    exact ⟨p, hp, rfl, mem_redoneOf hsrc hdest drop hp hc⟩
  have hro : ∀ f ∈ redone (diffEnv src dest drop) src dest,
      f.2.constraintType = b!"FOREIGN KEY" ∧
      f.2.tableSchema = f.1.tableSchema ∧ f.2.tableName = f.1.tableName := by
    intro f hf
    obtain ⟨p, hp, h1, h2⟩ := hr f hf
    rw [h1]
    exact ⟨eq_of_beq h2.fkey, os.constraints p.1 (mem_commonTables hp).1 f.2 h2.mem⟩
  -- what is added
  have hadd : ∀ {gs : List (List Constraint)} {fs : List (Table × Constraint)},
      gs.flatten.Perm (fs.map (·.2)) → (∀ f ∈ fs, f.2.constraintType = b!"FOREIGN KEY" ∧
        f.2.tableSchema = f.1.tableSchema ∧ f.2.tableName = f.1.tableName) →
      ((gs.flatMap fun g => g.map (addFkeyOf e)).flatMap fkeysAdded).Perm (fs.map fun f =>
        (fullName e.cur f.1.tableSchema f.1.tableName, conOf .sqlserver e.cur f.2)) := by
    intro gs fs hp ho
    rw [show (gs.flatMap fun g => g.map (addFkeyOf e)) = gs.flatten.map (addFkeyOf e) from
      List.map_flatten.symm]
    refine ((hp.map (addFkeyOf e)).flatMap_right fkeysAdded).trans (List.Perm.of_eq ?_)
    rw [List.map_map, List.flatMap_map, ← flatMap_singleton']
    refine flatMap_congr' fun f hf => ?_
    obtain ⟨o1, o2, o3⟩ := ho f hf
    simp only [Function.comp, addFkeyOf, alterOne, o2, o3]
    exact kind_foreign o1
  have hdrop : ∀ {gs : List (List Constraint)} {fs : List (Table × Constraint)},
      gs.flatten.Perm (fs.map (·.2)) → (∀ f ∈ fs,
        f.2.tableSchema = f.1.tableSchema ∧ f.2.tableName = f.1.tableName) →
      ((gs.flatMap fun g => g.map (dropFkeyOf e)).flatMap consDropped).Perm (fs.map fun f =>
        (fullName e.cur f.1.tableSchema f.1.tableName, f.2.constraintName)) := by
    intro gs fs hp ho
    rw [show (gs.flatMap fun g => g.map (dropFkeyOf e)) = gs.flatten.map (dropFkeyOf e) from
      List.map_flatten.symm]
    refine ((hp.map (dropFkeyOf e)).flatMap_right consDropped).trans (List.Perm.of_eq ?_)
    rw [List.map_map, List.flatMap_map, ← flatMap_singleton']
    refine flatMap_congr' fun f hf => ?_
    obtain ⟨o2, o3⟩ := ho f hf
    simp only [Function.comp, dropFkeyOf, alterOne, o2, o3]
    rfl
  refine ⟨fk, redone (diffEnv src dest drop) src dest, h1, hr, redone_nodup hsrc hdest drop, ?_,
    ((mssqlEvents src dest drop).filterMap Ev.alter?).flatMap fun a =>
      a.dropConstraints.map fun c =>
        (fullName e.cur (alterSchema e a.destTable) a.destTable.tableName, c.constraintName), ?_, ?_⟩
  · unfold plan
    simp only [List.flatMap_append]
    rw [flatMap_nil' (f := fkeysAdded) (xs := fk.dropFkeys.groups.flatMap fun g =>
          g.map (dropFkeyOf e))
        fun st hst => by
          obtain ⟨g, -, hg⟩ := List.mem_flatMap.1 hst
          obtain ⟨c, -, rfl⟩ := List.mem_map.1 hg
          rfl,
      flatMap_nil' (f := fkeysAdded) (xs := List.flatMap (dropSchemaOf e) _) fun st hst => by
        obtain ⟨s, -, hst⟩ := List.mem_flatMap.1 hst
        exact (dropSchemaOf_fkeys e s st hst).1,
      flatMap_nil' (f := fkeysAdded) (xs := List.map (fun s => .createSchema s s) _) fun st hst => by
        obtain ⟨s, -, rfl⟩ := List.mem_map.1 hst
        rfl,
      flatMap_nil' (f := fkeysAdded) (xs := List.map (fun t : Table =>
          .drop .table (fullName e.cur t.tableSchema t.tableName)) _) fun st hst => by
        obtain ⟨s, -, rfl⟩ := List.mem_map.1 hst
        rfl,
      flatMap_nil' (f := fkeysAdded) (xs := List.flatMap (createOf e) _) fun st hst => by
        obtain ⟨t, -, hst⟩ := List.mem_flatMap.1 hst
        exact (createOf_fkeys e t st hst).1,
      flatMap_nil' (f := fkeysAdded) (xs := List.flatMap (alterOf e) _) fun st hst => by
        obtain ⟨a, ha, hst⟩ := List.mem_flatMap.1 hst
        obtain ⟨p, hp, rfl⟩ := mem_alters (d := .sqlserver) (by simp [Server]) hsrc hdest ha
        exact alterOf_fkeys e _ (fun c hc => added_key drop hc) st hst]
    simp only [List.nil_append]
    rw [List.append_assoc, List.map_append]
    refine List.Perm.append (hadd h3 fun f hf => (newFkeys_owner od hf).2.2) ?_
    rw [← List.map_append] at h4
    refine hadd h4 fun f hf => ?_
    rcases List.mem_append.1 hf with hf | hf
    · exact (newFkeys_owner od hf).2.2
    · exact hro f hf
  · unfold plan
    simp only [List.flatMap_append]
    rw [flatMap_nil' (f := consDropped) (xs := List.flatMap (dropSchemaOf e) _) fun st hst => by
        obtain ⟨s, -, hst⟩ := List.mem_flatMap.1 hst
        exact (dropSchemaOf_fkeys e s st hst).2,
      flatMap_nil' (f := consDropped) (xs := List.map (fun s => .createSchema s s) _) fun st hst => by
        obtain ⟨s, -, rfl⟩ := List.mem_map.1 hst
        rfl,
      flatMap_nil' (f := consDropped) (xs := List.map (fun t : Table =>
          .drop .table (fullName e.cur t.tableSchema t.tableName)) _) fun st hst => by
        obtain ⟨s, -, rfl⟩ := List.mem_map.1 hst
        rfl,
      flatMap_nil' (f := consDropped) (xs := List.flatMap (createOf e) _) fun st hst => by
        obtain ⟨t, -, hst⟩ := List.mem_flatMap.1 hst
        exact (createOf_fkeys e t st hst).2,
      flatMap_nil' (f := consDropped) (xs := fk.addFastFkeys.groups.flatMap fun g =>
          g.map (addFkeyOf e)) fun st hst => by
        obtain ⟨g, -, hg⟩ := List.mem_flatMap.1 hst
        obtain ⟨c, -, rfl⟩ := List.mem_map.1 hg
        rfl,
      flatMap_nil' (f := consDropped) (xs := fk.addFkeys.groups.flatMap fun g =>
          g.map (addFkeyOf e)) fun st hst => by
        obtain ⟨g, -, hg⟩ := List.mem_flatMap.1 hst
        obtain ⟨c, -, rfl⟩ := List.mem_map.1 hg
        rfl]
    simp only [List.append_nil]
    refine List.Perm.append ?_ (List.Perm.of_eq ?_)
    · refine hdrop (fs := (if drop then goneFkeys src dest else []) ++
        redone (diffEnv src dest drop) src dest) ?_ fun f hf => ?_
      · rw [List.map_append]
        cases drop <;> exact h2
      · rcases List.mem_append.1 hf with hf | hf
        · cases drop with
          | false => cases hf
          | true => exact (goneFkeys_owner os hf).2.2.2
        · exact (hro f hf).2
    · rw [List.flatMap_assoc]
      exact flatMap_congr' fun a _ => alterOf_dropped e a
  · intro x hx
    obtain ⟨a, ha, hx⟩ := List.mem_flatMap.1 hx
    obtain ⟨p, hp, rfl⟩ := mem_alters (d := .sqlserver) (by simp [Server]) hsrc hdest ha
    obtain ⟨c, hc, rfl⟩ := List.mem_map.1 hx
    obtain ⟨h3, h4⟩ := dropped_key hsrc hdest drop hp hc
    exact ⟨p, hp, c, h3, h4, rfl⟩

/-- C37, SQL Server, with the text of the files: read as SQL, they add and drop the foreign keys that
`ms_fkeys_partial` says. -/
theorem ms_files_fkeys_partial (os : Owned src) (od : Owned dest) (e : Env) (h : Apart drop src dest)
    (ht : ∀ fk, mssqlFkeys (mssqlEvents src dest drop) = some fk →
      PlanText e (mssqlEvents src dest drop) fk) :
    ∃ fk redone sts, mssqlFkeys (mssqlEvents src dest drop) = some fk ∧
      ((sqlSteps e (mssqlEvents src dest drop) fk).mapM (readStep e.cur)).map List.flatten = some sts ∧
      (∀ f ∈ redone, ∃ p ∈ commonTables src dest, f.1 = p.1 ∧ Redone drop p f.2) ∧
      (OneColumn src dest → redone.Nodup) ∧
      (sts.flatMap fkeysAdded).Perm
        ((newFkeys src dest false ++ newFkeys src dest true ++ redone).map fun f =>
          (fullName e.cur f.1.tableSchema f.1.tableName, conOf .sqlserver e.cur f.2)) ∧
      ∃ rest, (sts.flatMap consDropped).Perm
          (((if drop then goneFkeys src dest else []) ++ redone).map (fun f =>
            (fullName e.cur f.1.tableSchema f.1.tableName, f.2.constraintName)) ++ rest) ∧
        ∀ x ∈ rest, ∃ p ∈ commonTables src dest, ∃ k ∈ liveConstraints p.1, keyConstraint k = true ∧
          x = (fullName e.cur (schemaOr e.cur p.2.tableSchema) p.2.tableName, k.constraintName) := by
  obtain ⟨fk, redone, h1, h2, h3, h4, h5⟩ := ms_fkeys_partial hsrc hdest drop os od e h
  exact ⟨fk, redone, _, h1, sqlSteps_read_back e _ fk (ht fk h1), h2, h3, h4, h5⟩

end

/-! ## A sample -/

namespace Shop

theorem src_ok : Ok src := by decide +kernel
theorem dest_ok : Ok dest := by decide +kernel

example : ∃ fk redone sts, mssqlFkeys (mssqlEvents src dest true) = some fk ∧
    ((sqlSteps env (mssqlEvents src dest true) fk).mapM (readStep env.cur)).map List.flatten =
      some sts ∧
    (sts.flatMap fkeysAdded).Perm
      ((newFkeys src dest false ++ newFkeys src dest true ++ redone).map fun f =>
        (fullName env.cur f.1.tableSchema f.1.tableName, conOf .sqlserver env.cur f.2)) := by
  obtain ⟨fk, redone, sts, h1, h2, -, -, h3, -⟩ := ms_files_fkeys_partial src_ok dest_ok true
    (by decide +kernel) (by decide +kernel) env (by decide +kernel) (fun fk h => by
      have e : fk = fkeys := by rw [fkeys, h]; rfl
      rw [e]
      exact planText)
  exact ⟨fk, redone, sts, h1, h2, h3⟩

end Shop

namespace Redo
open Shop (col pk)

def fk (t n : Str) (cs : List Str) (r : Str) (rcs : List Str) : Constraint :=
  { tableSchema := b!"dbo", tableName := t, constraintName := n, constraintType := b!"FOREIGN KEY",
    columns := cs, referencesSchema := b!"dbo", referencesTable := r, referencesColumns := rcs }

/-- A table of two columns. -/
def table (n ty1 ty2 : Str) (cs : List Constraint) : Table :=
  { tableSchema := b!"dbo", tableName := n,
    columns := [col n b!"a" ty1, col n b!"b" ty2], constraints := cs }

def parent : Table := table b!"parent" b!"INT" b!"INT" [pk b!"parent" b!"parent_pkey" [b!"a"]]

def key1 : Constraint := fk b!"child" b!"key1" [b!"a"] b!"parent" [b!"a"]
def key2 : Constraint := fk b!"child" b!"key2" [b!"b"] b!"parent" [b!"a"]
def key3 : Constraint := fk b!"third" b!"key3" [b!"a"] b!"parent" [b!"a"]
def key4 : Constraint := fk b!"child" b!"key4" [b!"a", b!"b"] b!"parent" [b!"a", b!"b"]

def db (ts : List Table) : Catalog :=
  { dialect := b!"sqlserver", currentSchema := b!"dbo", schemas := [{ schemaName := b!"dbo", tables := ts }] }

/-- One column that is referenced by a foreign key becomes longer: the foreign key is dropped and
added again, and the conditions of `ms_fkeys_partial` hold. -/
def src1 : Catalog := db [parent, table b!"child" b!"CHAR(5)" b!"INT" [key1]]
def dest1 : Catalog := db [parent, table b!"child" b!"CHAR(9)" b!"INT" [key1],
  table b!"third" b!"INT" b!"INT" [key3]]

example : ∃ fk redone, mssqlFkeys (mssqlEvents src1 dest1 true) = some fk ∧ redone.Nodup ∧
    ((plan ⟨b!"dbo", []⟩ (mssqlEvents src1 dest1 true) fk).flatMap fkeysAdded).Perm
      ((newFkeys src1 dest1 false ++ newFkeys src1 dest1 true ++ redone).map fun f =>
        (fullName b!"dbo" f.1.tableSchema f.1.tableName, conOf .sqlserver b!"dbo" f.2)) := by
  obtain ⟨fk, redone, h1, -, h2, h3, -⟩ := ms_fkeys_partial (src := src1) (dest := dest1)
    (by decide +kernel) (by decide +kernel) true (by decide +kernel) (by decide +kernel)
    ⟨b!"dbo", []⟩ (by decide +kernel)
  exact ⟨fk, redone, h1, h2 (by decide +kernel), h3⟩

example : (mssqlFkeys (mssqlEvents src1 dest1 true)).map (fun fk =>
    ((plan ⟨b!"dbo", []⟩ (mssqlEvents src1 dest1 true) fk).map Shop.show')) =
    some [b!"child: drop constraint key1", b!"create table third", b!"child: type of a",
      b!"third: add constraint key3", b!"child: add constraint key1"] := by
  decide +kernel

/-- A second foreign key, between the same tables. -/
def dest2 : Catalog := db [parent, table b!"child" b!"CHAR(9)" b!"INT" [key1, key2]]

/-- C37 is false for SQL Server: when a foreign key is added between two tables and a column of
another foreign key between them changes, the migration is not generated, but an index is out of
range. -/
theorem ms_fkeys_panic_refuted : Ok src1 ∧ Ok dest2 ∧ Owned src1 ∧ Owned dest2 ∧
    ∀ drop, mssqlFkeys (mssqlEvents src1 dest2 drop) = none := by
  refine ⟨by decide +kernel, by decide +kernel, by decide +kernel, by decide +kernel, ?_⟩
  decide +kernel

/-- The same, and a new table with a foreign key. -/
def dest3 : Catalog := db [table b!"third" b!"INT" b!"INT" [key3], parent,
  table b!"child" b!"CHAR(9)" b!"INT" [key1, key2]]

/-- C37 is false for SQL Server: when a new table has a foreign key as well, the foreign key that is
added between the two tables is lost, and that of the new table is added twice. -/
theorem ms_fkey_lost_refuted : Ok src1 ∧ Ok dest3 ∧ Owned src1 ∧ Owned dest3 ∧
    (newFkeys src1 dest3 true).map (fun f => f.2.constraintName) = [b!"key2"] ∧
    ∃ fk sts, mssqlFkeys (mssqlEvents src1 dest3 true) = some fk ∧
      ((sqlSteps ⟨b!"dbo", []⟩ (mssqlEvents src1 dest3 true) fk).mapM (readStep b!"dbo")).map
        List.flatten = some sts ∧
      (sts.flatMap fkeysAdded).map (fun f => (f.1.2, f.2.name)) =
        [(b!"third", some b!"key3"), (b!"third", some b!"key3"), (b!"child", some b!"key1")] := by
  refine ⟨by decide +kernel, by decide +kernel, by decide +kernel, by decide +kernel, by decide +kernel,
    (mssqlFkeys (mssqlEvents src1 dest3 true)).getD {}, _, by
      rw [Option.getD_eq_iff.2 (Or.inl (Option.some_get (by decide +kernel)).symm)]
      exact (Option.some_get _).symm,
    sqlSteps_read_back ⟨b!"dbo", []⟩ _ _ (by decide +kernel), by decide +kernel⟩

def src4 : Catalog := db [parent, table b!"child" b!"CHAR(5)" b!"CHAR(5)" [key4]]
def dest4 : Catalog := db [parent, table b!"child" b!"CHAR(9)" b!"CHAR(9)" [key4]]

/-- C37 is false for SQL Server: a foreign key that has two columns that change is dropped twice, and
added twice. -/
theorem ms_fkey_twice_refuted : Ok src4 ∧ Ok dest4 ∧ Owned src4 ∧ Owned dest4 ∧
    ∃ fk sts, mssqlFkeys (mssqlEvents src4 dest4 true) = some fk ∧
      ((sqlSteps ⟨b!"dbo", []⟩ (mssqlEvents src4 dest4 true) fk).mapM (readStep b!"dbo")).map
        List.flatten = some sts ∧
      (sts.flatMap consDropped).map (fun f => (f.1.2, f.2)) =
        [(b!"child", b!"key4"), (b!"child", b!"key4")] ∧
      (sts.flatMap fkeysAdded).map (fun f => (f.1.2, f.2.name)) =
        [(b!"child", some b!"key4"), (b!"child", some b!"key4")] := by
  refine ⟨by decide +kernel, by decide +kernel, by decide +kernel, by decide +kernel,
    (mssqlFkeys (mssqlEvents src4 dest4 true)).getD {}, _, by
      rw [Option.getD_eq_iff.2 (Or.inl (Option.some_get (by decide +kernel)).symm)]
      exact (Option.some_get _).symm,
    sqlSteps_read_back ⟨b!"dbo", []⟩ _ _ (by decide +kernel), by decide +kernel, by decide +kernel⟩

end Redo

end Sqddl.Sqlserver
