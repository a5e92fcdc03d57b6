import Verif.Lemmas.Diff
import Verif.Props.DiffSample

/-!
# What a generated migration contains

C33-C36 for MySQL, Postgres and SQL Server, at the level of the fields of the migration.
-/

namespace Sqddl
open CatalogSpec Go

section
variable {d : Dialect} (hd : Server d) {src dest : Catalog} (hsrc : Ok src) (hdest : Ok dest)
  (drop : Bool)
include hd

/-! ## C35: what is created -/

theorem tableStep_createTables (t : Table) :
    (tableStep src dest drop (alterOf d (diffEnv src dest drop)) t).filterMap Ev.createTable? =
      if hasTable src t.tableSchema t.tableName then [] else [t] := by
  rw [tableStep, hasTable_eq]
  cases findTable src t.tableSchema t.tableName with
  | none =>
    simp [createTableEvents, Ev.createTable?, Function.comp_def, filterMap_none']
  | some s =>
    simp only [Option.isSome_some, if_true]
    refine filterMap_eq_nil' fun ev hev => ?_
    have := alterOf_isAlterEv hd _ _ _ ev hev
    cases ev <;> first | rfl | cases this

theorem alterTableOf_destTable (p : Table × Table) :
    (alterTableOf d (diffEnv src dest drop) p.1 p.2).destTable = p.2 := by
  rcases hd with rfl | rfl | rfl <;> rfl

include hsrc in
theorem alterTableOf_addColumns {p : Table × Table} (hp : p ∈ commonTables src dest) :
    (alterTableOf d (diffEnv src dest drop) p.1 p.2).addColumns =
      (liveColumns p.2).filter fun x => !hasColumn p.1 x.columnName := by
  have := missingColumns_eq hsrc (inCatalog_live (mem_commonTables hp).1) p.2
  rcases hd with rfl | rfl | rfl <;> exact this

include hsrc hdest

/-- Exactly the tables that are missing in the source are created, each once and in the order of
the destination. -/
theorem createTables_exact :
    (diffEvents d src dest drop).filterMap Ev.createTable? =
      (liveTables dest).filter fun t => !hasTable src t.tableSchema t.tableName := by
  rw [diffEvents_walk hd, filterMap_walk_tables _ hsrc hdest drop _ (fun _ => rfl) (fun _ => rfl)
    (fun _ => rfl) (fun _ => rfl)]
  simp only [tableStep_createTables hd]
  rw [flatMap_ite_filter]
  simp

/-- The schemas that are created. -/
theorem createSchemas_exact :
    (diffEvents d src dest drop).filterMap Ev.createSchema? =
      ((liveSchemas dest).filter fun s => s.schemaName != [] && !hasSchema src s.schemaName).map
        (·.schemaName) := by
  rw [diffEvents_walk hd, walk_eq hsrc hdest, List.filterMap_append, List.filterMap_flatMap]
  rw [filterMap_eq_nil']
  · rw [List.nil_append]
    generalize liveSchemas dest = ss
    induction ss with
    | nil => rfl
    | cons s ss ih =>
      rw [List.flatMap_cons, ih, List.filter_cons, List.filterMap_append]
      rw [filterMap_eq_nil' (xs := (s.tables.filter _).flatMap _)]
      · rw [List.append_nil, schemaStep, hasSchema_eq hsrc]
        cases h : ((newCatalogCache src).getSchema src s.schemaName).toOption with
        | none => by_cases hn : s.schemaName = [] <;> simp [hn, Ev.createSchema?]
        | some x =>
          simp only [Option.isSome_some, Bool.not_true, Bool.and_false, Bool.false_eq_true,
            if_false]
          rw [filterMap_eq_nil', List.nil_append]
          intro ev hev
          split at hev
          · obtain ⟨t, -, ht⟩ := List.mem_flatMap.1 hev
            rw [dropTableEvents] at ht
            grind [Ev.createSchema?]
          · cases hev
      · intro ev hev
        obtain ⟨t, -, ht⟩ := List.mem_flatMap.1 hev
        rw [tableStep] at ht
        split at ht
        · rw [createTableEvents] at ht
          grind [Ev.createSchema?]
        · have := alterOf_isAlterEv hd _ _ _ ev ht
          cases ev <;> first | rfl | cases this
  · intro ev hev
    split at hev
    · obtain ⟨t, -, ht⟩ := List.mem_flatMap.1 hev
      rw [dropSchemaEvents] at ht
      grind [Ev.createSchema?]
    · cases hev

/-- Exactly the columns that are missing in the source are added to the existing tables, each
once and in the order of the destination. -/
theorem addColumns_exact :
    (((diffEvents d src dest drop).filterMap Ev.alter?).flatMap fun a =>
      a.addColumns.map fun x => (a.destTable, x)) =
    (commonTables src dest).flatMap fun p =>
      ((liveColumns p.2).filter fun x => !hasColumn p.1 x.columnName).map fun x => (p.2, x) := by
  rw [alters_eq hd hsrc hdest, List.flatMap_assoc]
  refine flatMap_congr' fun p hp => ?_
  have h1 := alterTableOf_addColumns hd hsrc drop hp
  have h2 := alterTableOf_destTable hd (src := src) (dest := dest) drop p
  dsimp only
  split
  · rw [List.flatMap_cons, h1, h2]; simp
  · rename_i h
    rw [← h1]
    have : (alterTableOf d (diffEnv src dest drop) p.1 p.2).addColumns = [] := by
      simp [AlterTable.worthKeeping] at h; grind
    rw [this]; rfl

/-- Exactly the foreign keys that are missing in the source are added, each once and in the order
of the destination. -/
theorem addFkeys_exact :
    (diffEvents d src dest drop).filterMap Ev.anyAddFkey? =
      (liveTables dest).flatMap fun t =>
        (liveConstraints t).filter fun c =>
          foreignKey c && !hasTableConstraint src t.tableSchema t.tableName c.constraintName := by
  rw [diffEvents_walk hd, filterMap_walk_tables _ hsrc hdest drop _ (fun _ => rfl) (fun _ => rfl)
    (fun _ => rfl) (fun _ => rfl)]
  refine flatMap_congr' fun t ht => ?_
  simp only [hasTableConstraint_eq hsrc]
  rw [tableStep]
  cases h : findTable src t.tableSchema t.tableName with
  | none =>
    have : (diffEnv src dest drop).destCache.getForeignKeys t = _ :=
      getForeignKeys_live hdest (inCatalog_live ht)
    rw [createTableEvents, List.filterMap_cons, List.filterMap_map, this]
    simp [Ev.anyAddFkey?, Function.comp_def]
  | some s =>
    have hs := inCatalog_live (List.mem_of_find?_eq_some h)
    have hm : ((missingConstraints (newCatalogCache src) s t).filter isFkey) =
        (liveConstraints t).filter fun c => foreignKey c && !hasConstraint s c.constraintName := by
      rw [missingConstraints_eq hsrc hs, List.filter_filter]
      simp only [isFkey_eq]
    rw [← hm]
    have he : (diffEnv src dest drop).srcCache = newCatalogCache src := rfl
    rcases hd with rfl | rfl | rfl <;>
    · simp only [alterOf, mysqlAlter, pgAlter, mssqlAlter, List.filterMap_append,
        List.filterMap_map, alterEvents, Function.comp_def, Ev.anyAddFkey?, filterMap_none',
        List.nil_append, he]
      split <;> simp [Ev.anyAddFkey?]

/-! ## C36: what is dropped -/

/-- The schemas that are dropped. -/
theorem dropSchemas_exact :
    (diffEvents d src dest drop).filterMap Ev.dropSchema? =
      if drop then
        (liveSchemas src).filter fun s => s.schemaName != [] && !hasSchema dest s.schemaName
      else [] := by
  have h1 : ∀ ds : Schema, (schemaStep src dest drop ds ++
      (ds.tables.filter fun t => !t.ignore).flatMap
        (tableStep src dest drop (alterOf d (diffEnv src dest drop)))).filterMap Ev.dropSchema? =
      [] := by
    intro ds
    refine filterMap_eq_nil' fun ev hev => ?_
    rcases List.mem_append.1 hev with hev | hev
    · rw [schemaStep] at hev
      split at hev
      · grind [Ev.dropSchema?]
      · split at hev
        · obtain ⟨t, -, ht⟩ := List.mem_flatMap.1 hev
          rw [dropTableEvents] at ht
          grind [Ev.dropSchema?]
        · cases hev
    · obtain ⟨t, -, ht⟩ := List.mem_flatMap.1 hev
      rw [tableStep] at ht
      split at ht
      · rw [createTableEvents] at ht
        grind [Ev.dropSchema?]
      · have := alterOf_isAlterEv hd _ _ _ ev ht
        cases ev <;> first | rfl | cases this
  rw [diffEvents_walk hd, walk_eq hsrc hdest, List.filterMap_append, List.filterMap_flatMap,
    flatMap_eq_nil' (fun ds _ => h1 ds), List.append_nil]
  cases drop with
  | false => rfl
  | true =>
    simp only [if_true]
    rw [List.filterMap_flatMap, liveSchemas, List.filter_filter, ← flatMap_ite_single]
    refine flatMap_congr' fun s hs => ?_
    have h2 : ∀ xs : List Table, (xs.flatMap fun t => if t.ignore then [] else
        ((diffEnv src dest true).srcCache.getForeignKeys t).map Ev.dropFkey).filterMap
        Ev.dropSchema? = [] := by
      intro xs
      refine filterMap_eq_nil' fun ev hev => ?_
      obtain ⟨t, -, ht⟩ := List.mem_flatMap.1 hev
      grind [Ev.dropSchema?]
    have h3 : (diffEnv src dest true).destCache.getSchema (diffEnv src dest true).dest
        s.schemaName = (newCatalogCache dest).getSchema dest s.schemaName := rfl
    rw [dropSchemaEvents, hasSchema_eq hdest, h3]
    cases s.ignore <;>
      cases ((newCatalogCache dest).getSchema dest s.schemaName).toOption <;>
      by_cases hn : s.schemaName = [] <;> simp [hn, h2, Ev.dropSchema?]


omit hsrc hdest in
theorem tableStep_no_dropTables (t : Table) :
    (tableStep src dest drop (alterOf d (diffEnv src dest drop)) t).filterMap Ev.dropTable? =
      [] := by
  refine filterMap_eq_nil' fun ev hev => ?_
  rw [tableStep] at hev
  split at hev
  · rw [createTableEvents] at hev
    grind [Ev.dropTable?]
  · have := alterOf_isAlterEv hd _ _ _ ev hev
    cases ev <;> first | rfl | cases this

omit hd hsrc hdest in
theorem dropTableEvents_tables (ds : Schema) (t : Table) :
    (dropTableEvents (diffEnv src dest drop) ds t).filterMap Ev.dropTable? =
      if !t.ignore && ((newCatalogCache dest).getTable ds t.tableName).toOption.isNone then [t]
      else [] := by
  have h : (diffEnv src dest drop).destCache = newCatalogCache dest := rfl
  rw [dropTableEvents, h]
  cases t.ignore <;> cases ((newCatalogCache dest).getTable ds t.tableName).toOption <;>
    simp [Ev.dropTable?]

/-- The tables that are dropped on their own (that is, not with their schema): schema by schema
the tables that are missing in the destination, each once. -/
theorem dropTables_exact :
    (diffEvents d src dest drop).filterMap Ev.dropTable? =
      if drop then
        (liveSchemas dest).flatMap fun ds => (liveTables src).filter fun t =>
          t.tableSchema == ds.schemaName && !hasTable dest t.tableSchema t.tableName
      else [] := by
  rw [diffEvents_walk hd, walk_eq hsrc hdest, List.filterMap_append]
  rw [filterMap_eq_nil', List.nil_append, List.filterMap_flatMap]
  · cases drop with
    | false =>
      rw [flatMap_eq_nil']; rfl
      intro ds _
      rw [List.filterMap_append, List.filterMap_flatMap,
        flatMap_eq_nil' (fun t _ => tableStep_no_dropTables hd false t), List.append_nil, schemaStep]
      refine filterMap_eq_nil' fun ev hev => ?_
      split at hev
      · grind [Ev.dropTable?]
      · cases hev
    | true =>
      simp only [if_true]
      refine flatMap_congr' fun ds hds => ?_
      rw [← surplusTables_eq hsrc hdest hds, List.filterMap_append, List.filterMap_flatMap,
        flatMap_eq_nil' (fun t _ => tableStep_no_dropTables hd true t), List.append_nil, schemaStep]
      cases ((newCatalogCache src).getSchema src ds.schemaName).toOption with
      | none =>
        dsimp only
        split <;> rfl
      | some s =>
        simp only [if_true]
        rw [List.filterMap_flatMap, ← flatMap_ite_single]
        exact flatMap_congr' fun t _ => dropTableEvents_tables true ds t
  · intro ev hev
    split at hev
    · obtain ⟨s, -, hs⟩ := List.mem_flatMap.1 hev
      rw [dropSchemaEvents] at hs
      grind [Ev.dropTable?]
    · cases hev

omit hd hsrc hdest in
theorem mem_dropTables_iff (t : Table) :
    (t ∈ (liveSchemas dest).flatMap fun ds => (liveTables src).filter fun t =>
          t.tableSchema == ds.schemaName && !hasTable dest t.tableSchema t.tableName) ↔
      t ∈ liveTables src ∧ hasSchema dest t.tableSchema = true ∧
        hasTable dest t.tableSchema t.tableName = false := by
  simp [List.mem_flatMap, hasSchema]
  grind

/-- With dropObjects, a table of the source is dropped, on its own or with its schema, exactly if
it is missing in the destination -- unless it belongs to a schema without a name that is missing
in the destination. -/
theorem dropTables_iff (t : Table) (ht : t ∈ liveTables src)
    (hn : t.tableSchema ≠ [] ∨ hasSchema dest [] = true) :
    (t ∈ (diffEvents d src dest true).filterMap Ev.dropTable? ∨
      ∃ s ∈ (diffEvents d src dest true).filterMap Ev.dropSchema?, t ∈ s.tables) ↔
    hasTable dest t.tableSchema t.tableName = false := by
  rw [dropTables_exact hd hsrc hdest, dropSchemas_exact hd hsrc hdest]
  simp only [if_true]
  rw [mem_dropTables_iff]
  obtain ⟨s, hs, hi, hts, -⟩ := mem_liveTables.1 ht
  have hname := (hsrc.ok s hs).schemaName t hts
  have hno : hasSchema dest t.tableSchema = false →
      hasTable dest t.tableSchema t.tableName = false := by
    intro h
    rw [hasTable_eq, findTable_no_schema hdest]; rfl
    rw [hasSchema_eq hdest] at h
    simpa using h
  constructor
  · rintro (⟨-, -, h⟩ | ⟨s', hs', ht'⟩)
    · exact h
    · simp only [List.mem_filter, liveSchemas] at hs'
      simp at hs'
      have : s'.schemaName = t.tableSchema := ((hsrc.ok s' hs'.1.1).schemaName t ht').symm
      exact hno (by rw [← this]; exact hs'.2.2)
  · intro h
    cases hsch : hasSchema dest t.tableSchema with
    | true => exact .inl ⟨ht, rfl, h⟩
    | false =>
      refine .inr ⟨s, ?_, hts⟩
      simp only [List.mem_filter, liveSchemas]
      simp
      refine ⟨⟨hs, hi⟩, ?_, by rw [← hname]; exact hsch⟩
      intro e
      rcases hn with hn | hn
      · exact hn (hname.trans e)
      · rw [hname, e, hn] at hsch; cases hsch


omit hsrc in
theorem tableStep_dropFkeys {t : Table} (ht : t ∈ liveTables dest) :
    (tableStep src dest drop (alterOf d (diffEnv src dest drop)) t).filterMap Ev.dropFkey? =
      match findTable src t.tableSchema t.tableName with
      | none => []
      | some s => if drop then (liveConstraints s).filter fun c =>
          foreignKey c && !hasConstraint t c.constraintName else [] := by
  rw [tableStep]
  cases h : findTable src t.tableSchema t.tableName with
  | none =>
    refine filterMap_eq_nil' fun ev hev => ?_
    rw [createTableEvents] at hev
    grind [Ev.dropFkey?]
  | some s =>
    have hm : ((surplusConstraints (newCatalogCache dest) s t).filter isFkey) =
        (liveConstraints s).filter fun c => foreignKey c && !hasConstraint t c.constraintName := by
      rw [surplusConstraints_eq hdest (inCatalog_live ht), List.filter_filter]
      simp only [isFkey_eq]
    dsimp only
    rw [← hm]
    have he : (diffEnv src dest drop).destCache = newCatalogCache dest := rfl
    rcases hd with rfl | rfl | rfl <;>
    · have ha : ∀ a, (alterEvents a).filterMap Ev.dropFkey? = [] := by
        intro a; rw [alterEvents]; split <;> rfl
      simp only [alterOf, mysqlAlter, pgAlter, mssqlAlter, List.filterMap_append,
        List.filterMap_map, Function.comp_def, Ev.dropFkey?, filterMap_none', ha,
        List.append_nil, he, whenDrop]
      cases drop <;> simp [diffEnv]

omit hd hdest in
theorem dropTableEvents_fkeys (ds : Schema) {t : Table} (ht : InCatalog src t) :
    (dropTableEvents (diffEnv src dest drop) ds t).filterMap Ev.dropFkey? =
      if !t.ignore && ((newCatalogCache dest).getTable ds t.tableName).toOption.isNone then
        (liveConstraints t).filter foreignKey
      else [] := by
  have h : (diffEnv src dest drop).destCache = newCatalogCache dest := rfl
  have h2 : (diffEnv src dest drop).srcCache.getForeignKeys t = _ := getForeignKeys_live hsrc ht
  rw [dropTableEvents, h, h2]
  cases t.ignore <;> cases ((newCatalogCache dest).getTable ds t.tableName).toOption <;>
    simp [List.filterMap_cons, Ev.dropFkey?, Function.comp_def]

/-- With dropObjects, exactly the foreign keys that are missing in the destination are dropped,
each once; without, none. -/
theorem dropFkeys_exact :
    ((diffEvents d src dest drop).filterMap Ev.dropFkey?).Perm
      (if drop then
        (liveTables src).flatMap fun t =>
          (liveConstraints t).filter fun c =>
            foreignKey c && !hasTableConstraint dest t.tableSchema t.tableName c.constraintName
      else []) := by
  rw [diffEvents_walk hd, walk_eq hsrc hdest, List.filterMap_append]
  cases drop with
  | false =>
    rw [filterMap_eq_nil', filterMap_eq_nil']
    · exact List.Perm.refl _
    · intro ev hev
      obtain ⟨ds, hds, hev⟩ := List.mem_flatMap.1 hev
      rcases List.mem_append.1 hev with hev | hev
      · rw [schemaStep] at hev
        grind [Ev.dropFkey?]
      · obtain ⟨t, ht, hev⟩ := List.mem_flatMap.1 hev
        have ht' : t ∈ liveTables dest := List.mem_flatMap.2 ⟨ds, hds, ht⟩
        have := tableStep_dropFkeys hd (src := src) hdest false ht'
        have h2 : (tableStep src dest false (alterOf d (diffEnv src dest false)) t).filterMap
            Ev.dropFkey? = [] := by rw [this]; split <;> rfl
        rw [List.filterMap_eq_nil_iff] at h2
        exact h2 ev hev
    · intro ev hev; cases hev
  | true =>
    simp only [if_true]
    -- the right side, by what the destination has
    let g1 : Table → List Constraint := fun t =>
      if hasTable dest t.tableSchema t.tableName then [] else (liveConstraints t).filter foreignKey
    let f2 : Table → Table → List Constraint := fun s t =>
      (liveConstraints s).filter fun c => foreignKey c && !hasConstraint t c.constraintName
    let g2 : Table → List Constraint := fun s =>
      ((liveTables dest).find? fun t =>
        (t.tableSchema, t.tableName) == (s.tableSchema, s.tableName)).elim [] fun t => f2 s t
    have hR : ((liveTables src).flatMap fun t =>
          (liveConstraints t).filter fun c =>
            foreignKey c && !hasTableConstraint dest t.tableSchema t.tableName c.constraintName) =
        (liveTables src).flatMap fun t => g1 t ++ g2 t := by
      refine flatMap_congr' fun t _ => ?_
      simp only [hasTableConstraint_eq hdest, g1, g2, hasTable_eq, findTable_key]
      cases (liveTables dest).find? fun x =>
        (x.tableSchema, x.tableName) == (t.tableSchema, t.tableName) <;> simp [f2]
    rw [hR]
    refine List.Perm.trans ?_ (flatMap_append_perm' _ _ _).symm
    -- the second loop
    have hL : ((liveSchemas dest).flatMap fun ds => schemaStep src dest true ds ++
          (ds.tables.filter fun t => !t.ignore).flatMap
            (tableStep src dest true (alterOf d (diffEnv src dest true)))).filterMap Ev.dropFkey? =
        (liveSchemas dest).flatMap fun ds =>
          ((liveTables src).filter fun t => t.tableSchema == ds.schemaName).flatMap g1 ++
          (ds.tables.filter fun t => !t.ignore).flatMap fun t =>
            ((liveTables src).find? fun s =>
              (s.tableSchema, s.tableName) == (t.tableSchema, t.tableName)).elim [] fun s =>
              f2 s t := by
      rw [List.filterMap_flatMap]
      refine flatMap_congr' fun ds hds => ?_
      rw [List.filterMap_append, List.filterMap_flatMap]
      congr 1
      · have h1 : ((liveTables src).filter fun t => t.tableSchema == ds.schemaName).flatMap g1 =
            ((liveTables src).filter fun t =>
              t.tableSchema == ds.schemaName && !hasTable dest t.tableSchema t.tableName).flatMap
              fun t => (liveConstraints t).filter foreignKey := by
          rw [filter_flatMap_ite, filter_flatMap_ite]
          refine flatMap_congr' fun t _ => ?_
          simp only [g1]
          cases t.tableSchema == ds.schemaName <;>
            cases hasTable dest t.tableSchema t.tableName <;> rfl
        rw [h1, ← surplusTables_eq hsrc hdest hds, schemaStep]
        cases h : ((newCatalogCache src).getSchema src ds.schemaName).toOption with
        | none => dsimp only; split <;> rfl
        | some s =>
          simp only [if_true]
          have hs := ((getSchema_iff hsrc _ _).1 h).1
          rw [List.filterMap_flatMap, filter_flatMap_ite]
          exact flatMap_congr' fun t ht =>
            dropTableEvents_fkeys hsrc true ds ⟨s, hs, ht⟩
      · refine flatMap_congr' fun t ht => ?_
        have ht' : t ∈ liveTables dest := List.mem_flatMap.2 ⟨ds, hds, ht⟩
        rw [tableStep_dropFkeys hd hdest true ht', findTable_key]
        cases (liveTables src).find? fun s =>
              (s.tableSchema, s.tableName) == (t.tableSchema, t.tableName) <;> rfl
    rw [hL]
    refine (List.Perm.append_left _ (flatMap_append_perm' _ _ _)).trans ?_
    rw [← List.append_assoc]
    refine List.Perm.append ?_ ?_
    · -- tables without counterpart
      have hA : (src.schemas.flatMap (dropSchemaEvents (diffEnv src dest true))).filterMap
            Ev.dropFkey? =
          (liveTables src).flatMap fun t =>
            if hasSchema dest t.tableSchema then [] else g1 t := by
        rw [List.filterMap_flatMap, liveTables, List.flatMap_assoc, liveSchemas,
          filter_flatMap_ite]
        refine flatMap_congr' fun s hs => ?_
        have h3 : (diffEnv src dest true).destCache.getSchema (diffEnv src dest true).dest
            s.schemaName = (newCatalogCache dest).getSchema dest s.schemaName := rfl
        rw [dropSchemaEvents, h3]
        have h4 : (((newCatalogCache dest).getSchema dest s.schemaName).toOption.isSome) =
            hasSchema dest s.schemaName := (hasSchema_eq hdest _).symm
        rw [h4]
        cases hi : s.ignore with
        | true => rfl
        | false =>
          cases hh : hasSchema dest s.schemaName with
          | true =>
            simp
            intro t ht _ 
            rw [(hsrc.ok s hs).schemaName t ht, hh]; simp
          | false =>
            have hnone : ((newCatalogCache dest).getSchema dest s.schemaName).toOption = none := by
              rw [hasSchema_eq hdest] at hh; simpa using hh
            simp only [Bool.false_eq_true, if_false, Bool.not_false, if_true,
              List.filterMap_append, List.filterMap_flatMap]
            rw [filterMap_eq_nil', List.nil_append, filter_flatMap_ite]
            · refine flatMap_congr' fun t ht => ?_
              have hg : (diffEnv src dest true).srcCache.getForeignKeys t = _ :=
                getForeignKeys_live hsrc ⟨s, hs, ht⟩
              rw [(hsrc.ok s hs).schemaName t ht, hh, hg]
              simp only [g1, hasTable_eq, (hsrc.ok s hs).schemaName t ht,
                findTable_no_schema hdest hnone]
              cases t.ignore <;> simp [Ev.dropFkey?, Function.comp_def]
            · intro ev hev
              grind [Ev.dropFkey?]
      rw [hA]
      have hB := group_perm (kx := fun t : Table => t.tableSchema) (ky := fun s : Schema =>
        s.schemaName) (liveSchemas_nodup hdest) g1 (liveTables src)
      refine (List.Perm.append_left _ hB).trans ?_
      refine (flatMap_append_perm' _ _ _).symm.trans ?_
      refine List.Perm.of_eq (flatMap_congr' fun t _ => ?_)
      show (if hasSchema dest t.tableSchema then [] else g1 t) ++
        (if hasSchema dest t.tableSchema then g1 t else []) = g1 t
      split <;> simp
    · -- tables with a counterpart
      have hC := join_perm (kx := fun t : Table => (t.tableSchema, t.tableName))
        (ky := fun t : Table => (t.tableSchema, t.tableName)) (liveTables_nodup hsrc) f2
        (liveTables_nodup hdest)
      refine List.Perm.trans ?_ hC
      refine List.Perm.of_eq ?_
      exact List.flatMap_assoc.symm

end

/-! ## The theorems on the two sample catalogs -/

section
open Sample

example {d : Dialect} (hd : Server d) (drop : Bool) :
    ((diffEvents d src dest drop).filterMap Ev.createTable?).map
      (fun t => (t.tableSchema, t.tableName)) = [([], b!"prize"), (b!"fresh", b!"t")] := by
  rw [createTables_exact hd src_ok dest_ok]; decide +kernel

example {d : Dialect} (hd : Server d) (drop : Bool) :
    (diffEvents d src dest drop).filterMap Ev.createSchema? = [b!"fresh"] := by
  rw [createSchemas_exact hd src_ok dest_ok]; decide +kernel

example {d : Dialect} (hd : Server d) (drop : Bool) :
    (((diffEvents d src dest drop).filterMap Ev.alter?).flatMap fun a =>
      a.addColumns.map fun x => (a.destTable, x)).map (fun p => (p.1.tableName, p.2.columnName)) =
    [(b!"actor", b!"secret"), (b!"actor", b!"born")] := by
  rw [addColumns_exact hd src_ok dest_ok]; decide +kernel

example {d : Dialect} (hd : Server d) (drop : Bool) :
    ((diffEvents d src dest drop).filterMap Ev.anyAddFkey?).map (·.constraintName) =
      [b!"film_actor_fkey", b!"prize_film_id_fkey"] := by
  rw [addFkeys_exact hd src_ok dest_ok]; decide +kernel

example {d : Dialect} (hd : Server d) :
    ((diffEvents d src dest true).filterMap Ev.dropSchema?).map (·.schemaName) = [b!"gone"] := by
  rw [dropSchemas_exact hd src_ok dest_ok]; decide +kernel

example {d : Dialect} (hd : Server d) :
    ((diffEvents d src dest true).filterMap Ev.dropTable?).map (·.tableName) = [b!"old"] := by
  rw [dropTables_exact hd src_ok dest_ok]; decide +kernel

example {d : Dialect} (hd : Server d) :
    (((diffEvents d src dest true).filterMap Ev.dropFkey?).map (·.constraintName)).Perm
      [b!"old_id_fkey", b!"film_lead_fkey"] := by
  refine ((dropFkeys_exact hd src_ok dest_ok true).map _).trans ?_
  decide +kernel

example : ∃ t ∈ liveTables src, t.tableSchema ≠ [] ∧
    hasTable dest t.tableSchema t.tableName = false := by decide +kernel

end

/-- A source schema without a name that does not exist in the destination stays, with its tables,
although dropObjects is set: the full C36 for tables is false. -/
theorem nameless_schema_refuted {d : Dialect} (hd : Server d) :
    diffEvents d { schemas := [{ tables := [{ tableName := b!"t" }] }] } {} true = [] ∧
    hasTable {} [] b!"t" = false := by
  rcases hd with rfl | rfl | rfl <;> decide +kernel

end Sqddl
