import Verif.Props.RenderAlter

/-!
# The files of a MySQL migration are read back (C66)
-/

namespace Sqddl.Mysql
open Go SqlSpec DdlText CatalogSpec Sqddl.Render Sqddl.Files
open Sqddl.Wipe (qualified buffer addStmt)

/-- The statements for a table that is created. -/
def createOf (cur coll : Str) (t : Table) : List Stmt :=
  createTableOf .mysql cur coll true t :: t.indexes.map (createIndexOf .mysql cur false)

/-- The statements that a MySQL migration stands for. -/
def plan (cur coll : Str) (evs : List Ev) : List Stmt :=
  (evs.filterMap Ev.dropFkey?).map (dropConstraintOf cur) ++
  ((evs.filterMap Ev.dropSchema?).map fun s => .dropSchema s.schemaName) ++
  (evs.filterMap Ev.createSchema?).map .createSchema ++
  ((evs.filterMap Ev.dropTable?).map fun t => .dropTable (fullName cur t.tableSchema t.tableName)) ++
  (evs.filterMap Ev.createTable?).flatMap (createOf cur coll) ++
  (evs.filterMap Ev.alter?).map (alterTableOf .mysql cur coll) ++
  (evs.filterMap Ev.anyAddFkey?).map (addConstraintOf .mysql cur)

/-- A migration that can be expressed. -/
structure PlanText (cur coll : Str) (evs : List Ev) : Prop where
  dropFkeys : ∀ c ∈ evs.filterMap Ev.dropFkey?,
    (c.tableSchema ≠ [] → PlainName .mysql c.tableSchema) ∧ PlainName .mysql c.tableName ∧
    PlainName .mysql c.constraintName
  dropSchemas : ∀ s ∈ evs.filterMap Ev.dropSchema?, PlainName .mysql s.schemaName
  createSchemas : ∀ s ∈ evs.filterMap Ev.createSchema?, PlainName .mysql s
  dropTables : ∀ t ∈ evs.filterMap Ev.dropTable?,
    (t.tableSchema ≠ [] → PlainName .mysql t.tableSchema) ∧ PlainName .mysql t.tableName
  createTables : ∀ t ∈ evs.filterMap Ev.createTable?, TableText .mysql cur coll t ∧
    ∀ x ∈ t.indexes, x.sql = [] ∧ IndexOk .mysql false x
  alters : ∀ a ∈ evs.filterMap Ev.alter?, AlterText .mysql cur coll a
  addFkeys : ∀ c ∈ evs.filterMap Ev.anyAddFkey?,
    (c.tableSchema ≠ [] → PlainName .mysql c.tableSchema) ∧ PlainName .mysql c.tableName ∧
    ConstraintOk .mysql cur c

/-- The statements of a buffer. -/
theorem runScript_buffer' {cur : Str} {ss : List Str} {sts : List Stmt}
    (h : ∃ ps : List (Str × Stmt), ps.map (·.1) = ss ∧ ps.map (·.2) = sts ∧
      ∀ p ∈ ps, IsStmt .mysql cur p.1 p.2) :
    runScript .mysql (keywords .mysql) cur (buffer ss) = some sts := by
  obtain ⟨ps, rfl, rfl, h⟩ := h
  exact runScript_buffer .mysql cur ps h

theorem pairs_append {cur : Str} {ss ss' : List Str} {sts sts' : List Stmt}
    (h : ∃ ps : List (Str × Stmt), ps.map (·.1) = ss ∧ ps.map (·.2) = sts ∧
      ∀ p ∈ ps, IsStmt .mysql cur p.1 p.2)
    (h' : ∃ ps : List (Str × Stmt), ps.map (·.1) = ss' ∧ ps.map (·.2) = sts' ∧
      ∀ p ∈ ps, IsStmt .mysql cur p.1 p.2) :
    ∃ ps : List (Str × Stmt), ps.map (·.1) = ss ++ ss' ∧ ps.map (·.2) = sts ++ sts' ∧
      ∀ p ∈ ps, IsStmt .mysql cur p.1 p.2 := by
  obtain ⟨ps, rfl, rfl, h⟩ := h
  obtain ⟨qs, rfl, rfl, h'⟩ := h'
  refine ⟨ps ++ qs, by simp, by simp, ?_⟩
  intro p hp
  rcases List.mem_append.1 hp with hp | hp
  · exact h p hp
  · exact h' p hp

theorem pairs_map {α : Type} {cur : Str} (xs : List α) (f : α → Str) (g : α → Stmt)
    (h : ∀ x ∈ xs, IsStmt .mysql cur (f x) (g x)) :
    ∃ ps : List (Str × Stmt), ps.map (·.1) = xs.map f ∧ ps.map (·.2) = xs.map g ∧
      ∀ p ∈ ps, IsStmt .mysql cur p.1 p.2 := by
  refine ⟨xs.map fun x => (f x, g x), by simp, by simp, ?_⟩
  intro p hp
  simp only [List.mem_map] at hp
  obtain ⟨x, hx, rfl⟩ := hp
  exact h x hx

theorem pairs_flatMap {α : Type} {cur : Str} (xs : List α) (f : α → List Str) (g : α → List Stmt)
    (h : ∀ x ∈ xs, ∃ ps : List (Str × Stmt), ps.map (·.1) = f x ∧ ps.map (·.2) = g x ∧
      ∀ p ∈ ps, IsStmt .mysql cur p.1 p.2) :
    ∃ ps : List (Str × Stmt), ps.map (·.1) = xs.flatMap f ∧ ps.map (·.2) = xs.flatMap g ∧
      ∀ p ∈ ps, IsStmt .mysql cur p.1 p.2 := by
  induction xs with
  | nil => exact ⟨[], rfl, rfl, by simp⟩
  | cons x xs ih =>
    simp only [List.flatMap_cons]
    exact pairs_append (h x (by simp)) (ih fun y hy => h y (by simp [hy]))

/-- The content of the file of a step that is run by migrating. -/
def forward (step : List File) : Str := (step.headD ([], [])).2

theorem mapM_append_some {α β : Type} (f : α → Option β) (xs ys : List α) (bs cs : List β)
    (h1 : xs.mapM f = some bs) (h2 : ys.mapM f = some cs) :
    (xs ++ ys).mapM f = some (bs ++ cs) := by
  rw [List.mapM_append, h1, h2]; rfl

/-- Steps of one statement each. -/
theorem steps_single {α : Type} (cur : Str) (xs : List α) (f : α → Str × Str) (g : α → Stmt)
    (h : ∀ x ∈ xs, IsStmt .mysql cur (f x).2 (g x)) :
    ((xs.map fun x => [f x]).mapM fun st =>
      runScript .mysql (keywords .mysql) cur (forward st)) = some (xs.map fun x => [g x]) :=
  mapM_map_some _ (fun x => [f x]) (fun x => [g x]) xs fun x hx =>
    runScript_one .mysql cur _ _ (h x hx)

/-- C66: the files of a MySQL migration, in their order, are read back as the statements of the
migration. -/
theorem steps_read_back (cur coll : Str) (evs : List Ev) (h : PlanText cur coll evs) :
    (((sqlSteps cur coll evs).mapM fun st =>
      runScript .mysql (keywords .mysql) cur (forward st)).map List.flatten) =
      some (plan cur coll evs) := by
  have h1 := steps_single cur (evs.filterMap Ev.dropFkey?)
    (fun c => (b!"_drop_" ++ noSpaces c.constraintName ++ b!".sql", dropFkey cur c))
    (dropConstraintOf cur)
    fun c hc => mysql_dropFkey_reads_back cur c (h.dropFkeys c hc).1 (h.dropFkeys c hc).2.1
      (h.dropFkeys c hc).2.2
  have h2 : ∃ xs, (schemaSteps evs).mapM (fun st =>
      runScript .mysql (keywords .mysql) cur (forward st)) = some xs ∧
      xs.flatten = ((evs.filterMap Ev.dropSchema?).map fun s => Stmt.dropSchema s.schemaName) ++
        (evs.filterMap Ev.createSchema?).map Stmt.createSchema := by
    unfold schemaSteps
    simp only
    split
    · rename_i he
      simp only [Bool.and_eq_true, List.isEmpty_iff, List.map_eq_nil_iff] at he
      exact ⟨[], rfl, by simp [he.1, he.2]⟩
    · have := runScript_buffer' (pairs_append
        (pairs_map (cur := cur) (evs.filterMap Ev.dropSchema?)
          (fun s => dropSchema .mysql s.schemaName) (fun s => .dropSchema s.schemaName)
          fun s hs => dropSchema_reads_back .mysql cur _ (h.dropSchemas s hs))
        (pairs_map (evs.filterMap Ev.createSchema?) (createSchema .mysql) Stmt.createSchema
          fun s hs => createSchema_reads_back .mysql cur s (Or.inr rfl) (h.createSchemas s hs)))
      refine ⟨[_], ?_, List.append_nil _⟩
      rw [List.mapM_cons, List.mapM_nil]
      simp only [forward, List.headD_cons, List.map_map, Function.comp_def]
      rw [this]; rfl
  have h3 : ∃ xs, (tableSteps cur coll evs).mapM (fun st =>
      runScript .mysql (keywords .mysql) cur (forward st)) = some xs ∧
      xs.flatten = ((evs.filterMap Ev.dropTable?).map fun t =>
        Stmt.dropTable (fullName cur t.tableSchema t.tableName)) ++
        (evs.filterMap Ev.createTable?).flatMap (createOf cur coll) := by
    unfold tableSteps
    simp only
    split
    · rename_i he
      simp only [Bool.and_eq_true, List.isEmpty_iff] at he
      exact ⟨[], rfl, by simp [he.1, he.2]⟩
    · have := runScript_buffer' (pairs_append
        (pairs_map (cur := cur) (evs.filterMap Ev.dropTable?)
          (dropTable .mysql cur) (fun t => .dropTable (fullName cur t.tableSchema t.tableName))
          fun t ht => dropTable_reads_back .mysql cur t (h.dropTables t ht).1 (h.dropTables t ht).2)
        (pairs_flatMap (evs.filterMap Ev.createTable?) (createTableStmts cur coll)
          (createOf cur coll) fun t ht =>
            pairs_append (ss := [createTable .mysql cur coll t true])
              (sts := [createTableOf .mysql cur coll true t])
              (pairs_map [t] (fun t => createTable .mysql cur coll t true)
                (createTableOf .mysql cur coll true) fun x hx => by
                  rw [List.mem_singleton] at hx
                  rw [hx]
                  exact createTable_reads_back .mysql cur coll true t (h.createTables t ht).1)
              (pairs_map t.indexes _ _ fun x hx =>
                createIndex_reads_back .mysql cur false x ((h.createTables t ht).2 x hx).1
                  ((h.createTables t ht).2 x hx).2)))
      refine ⟨[_], ?_, List.append_nil _⟩
      rw [List.mapM_cons, List.mapM_nil]
      simp only [forward, List.headD_cons]
      rw [this]; rfl
  have h4 := steps_single cur (evs.filterMap Ev.alter?)
    (fun a => (alterName cur a.destTable, alterTable cur coll a))
    (alterTableOf .mysql cur coll)
    fun a ha => mysql_alterTable_reads_back cur coll a (h.alters a ha)
  have h5 := steps_single cur (evs.filterMap Ev.anyAddFkey?)
    (fun c => (b!"_add_" ++ noSpaces c.constraintName ++ b!".sql", addFkey cur c))
    (addConstraintOf .mysql cur)
    fun c hc => mysql_addFkey_reads_back cur c (h.addFkeys c hc).1 (h.addFkeys c hc).2.1
      (h.addFkeys c hc).2.2
  obtain ⟨xs, h2, e2⟩ := h2
  obtain ⟨ys, h3, e3⟩ := h3
  have := mapM_append_some _ _ _ _ _ (mapM_append_some _ _ _ _ _ (mapM_append_some _ _ _ _ _
    (mapM_append_some _ _ _ _ _ h1 h2) h3) h4) h5
  have e : sqlSteps cur coll evs =
    ((List.map (fun c => [(b!"_drop_" ++ noSpaces c.constraintName ++ b!".sql", dropFkey cur c)])
      (evs.filterMap Ev.dropFkey?) ++ schemaSteps evs ++ tableSteps cur coll evs ++
      List.map (fun a => [(alterName cur a.destTable, alterTable cur coll a)])
        (evs.filterMap Ev.alter?)) ++
      List.map (fun c => [(b!"_add_" ++ noSpaces c.constraintName ++ b!".sql", addFkey cur c)])
        (evs.filterMap Ev.anyAddFkey?)) := rfl
  rw [e, this]
  simp only [Option.map_some, Option.some.injEq, List.flatten_append, e2, e3, plan]
  have hs : ∀ {α : Type} (xs : List α) (g : α → Stmt), (xs.map fun x => [g x]).flatten = xs.map g := by
    intro α xs g; induction xs with
    | nil => rfl
    | cons x xs ih => simp [ih]
  rw [hs, hs, hs]
  simp only [List.append_assoc]

end Sqddl.Mysql
