import Verif.Props.PgPlan
import Verif.Lemmas.FkGroups

/-!
# The files of a Postgres migration are read back (C66): the whole migration
-/

namespace Sqddl.Postgres
open Go SqlSpec DdlText CatalogSpec Sqddl.Render Sqddl.Files PgText
open Sqddl.Wipe (qualified buffer addStmt)
open PgText (Act Stmt readStmt readAct)

/-- A constraint, added to any table. -/
theorem isAct_addConstraint' (cur owner : Str) (c : Constraint) (h : ConstraintOk .postgres cur c)
    (v : Bool) :
    IsAct cur owner (b!"ADD " ++ constraintDef .postgres cur c ++ opt v b!" NOT VALID")
      (.addConstraint (withValid v (conOf .postgres cur c))) := by
  obtain ⟨ts, raw, h1, h2, h3, h4, h5⟩ := isAct_addConstraint cur c h v
  refine ⟨ts, raw, h1, h2, h3, ?_, h5⟩
  rw [← h4]
  cases raw <;> rfl

theorem withValid_conOf (cur : Str) (c : Constraint) (v : Bool) (h : c.isNotValid = v) :
    withValid v (conOf .postgres cur c) = conOf .postgres cur c := by
  subst h; rfl

theorem firstFkey_mem {g : List Constraint} (h : g ≠ []) : firstFkey g ∈ g := by
  cases g with
  | nil => exact absurd rfl h
  | cons c g => simp [firstFkey]

/-- Texts of one statement each. -/
theorem texts_map {α : Type} {cur : Str} (xs : List α) (f : α → Str) (g : α → PgText.Stmt)
    (h : ∀ x ∈ xs, f x ≠ [] ∧ IsScript cur (f x) [g x]) : Texts cur (xs.map f) (xs.map g) := by
  rw [← flatMap_one xs g]
  exact Texts.map xs f _ h

/-- The ALTER TABLEs of a group, each with one part. -/
theorem texts_group (e : Env) (g : List Constraint) (f : Constraint → Str) (a : Constraint → Act)
    (part : Constraint → Str) (hn : NameText (firstFkey g).tableSchema (firstFkey g).tableName)
    (h : ∀ c ∈ g, IsAct e.cur (firstFkey g).tableSchema (part c) (a c))
    (ht : ∀ c ∈ g, f c = b!"ALTER TABLE " ++
      tableSql e (firstFkey g).tableSchema (firstFkey g).tableName ++ (b!" " ++ part c) ++ b!";\n") :
    Texts e.cur (g.map f) (groupAlter e g a) := by
  have := texts_acts e g f a part hn h ht
  rwa [List.map_map] at this

/-- C66: the files of the foreign keys that are dropped. -/
theorem dropFkeySteps_read_back (e : Env) (evs : List Ev) (h : PlanText e evs) :
    StepsRead e.cur (dropFkeySteps e evs) ((groupFkeys (evs.filterMap Ev.dropFkey?)).flatMap fun g =>
      groupAlter e g fun c => .dropConstraint true c.constraintName) := by
  refine StepsRead.map _ _ _ fun g hg => readStep_buffer ?_
  have h1 := fun c hc => h.dropFkeys c (groupFkeys_mem hg hc)
  exact texts_group e g _ _ (fun c => b!"DROP CONSTRAINT IF EXISTS " ++
      quoteIdentifier .postgres c.constraintName) (h1 _ (firstFkey_mem (groupFkeys_ne_nil hg))).1
    (fun c hc => isAct_dropConstraintIf _ _ _ (h1 c hc).2)
    (fun c _ => by simp [List.append_assoc])

/-- C66: the files of the foreign keys of new tables. -/
theorem addFastFkeySteps_read_back (e : Env) (evs : List Ev) (h : PlanText e evs) :
    StepsRead e.cur (addFastFkeySteps e evs)
      ((groupFkeys (evs.filterMap Ev.addFastFkey?)).flatMap fun g =>
        groupAlter e g fun c => .addConstraint (conOf .postgres e.cur c)) := by
  refine StepsRead.map _ _ _ fun g hg => readStep_buffer ?_
  have h1 := fun c hc => h.addFastFkeys c (groupFkeys_mem hg hc)
  refine texts_group e g _ _ (fun c => b!"ADD " ++ constraintDef .postgres e.cur c)
    (h1 _ (firstFkey_mem (groupFkeys_ne_nil hg))).1 (fun c hc => ?_)
    (fun c _ => by simp [List.append_assoc])
  have := isAct_addConstraint' e.cur (firstFkey g).tableSchema c (h1 c hc).2 false
  rw [withValid_conOf _ _ _ (h1 c hc).2.valid] at this
  simpa [opt] using this

/-- C66: the files of the foreign keys of tables that exist. -/
theorem addFkeySteps_read_back (e : Env) (evs : List Ev) (h : PlanText e evs) :
    StepsRead e.cur (addFkeySteps e evs)
      ((groupFkeys (evs.filterMap Ev.addFkey?)).flatMap fun g =>
        (groupAlter e g fun c => .addConstraint (withValid true (conOf .postgres e.cur c))) ++
        groupAlter e g fun c => .validate c.constraintName) := by
  refine StepsRead.flatMap _ _ _ fun g hg => ?_
  have h1 := fun c hc => h.addFkeys c (groupFkeys_mem hg hc)
  have hn := (h1 _ (firstFkey_mem (groupFkeys_ne_nil hg))).1
  refine StepsRead.append (a := [_]) (.one (readStep_buffer ?_)) (.one (readStep_buffer ?_))
  · refine texts_group e g _ _ (fun c => b!"ADD " ++ constraintDef .postgres e.cur c ++ b!" NOT VALID")
      hn (fun c hc => ?_) (fun c _ => by simp [List.append_assoc])
    have := isAct_addConstraint' e.cur (firstFkey g).tableSchema c (h1 c hc).2.2 true
    simpa [opt] using this
  · exact texts_group e g _ _ (fun c => b!"VALIDATE CONSTRAINT " ++
      quoteIdentifier .postgres c.constraintName) hn
      (fun c hc => isAct_validate _ _ _ (h1 c hc).2.1) (fun c _ => by simp [List.append_assoc])

theorem dropSchemaCascade_isScript (cur n : Str) (h : PlainName .postgres n) :
    dropSchemaCascade n ≠ [] ∧ IsScript cur (dropSchemaCascade n) [.dropSchemaCascade n] := by
  have p := (reads_lit .postgres b!"DROP SCHEMA IF EXISTS " (by decide) (by decide)).append_p
    ((readsP_ident .postgres n).piece (Piece.lit .postgres b!" CASCADE" [.word b!"CASCADE"] (by decide)))
  have e : stoks b!"DROP SCHEMA IF EXISTS " = [.word b!"DROP", .word b!"SCHEMA", .word b!"IF",
    .word b!"EXISTS"] := by decide
  rw [e, ← List.append_assoc] at p
  have := isScript_of (cur := cur) (st := .dropSchemaCascade n) b!";\n" p (by
    refine bal_append0 _ _ (by rfl) (bal_append0 _ _ (flat_bal _ _ (flat_ident .postgres n)) (by rfl)))
    gap_semi (by
      have := readStmt_dropSchemaCascade n h
      have := congrArg (Option.map (PgText.Stmt.resolve cur)) this
      exact this)
  simpa [dropSchemaCascade, List.append_assoc] using this

/-- C66: the file of the schemas. -/
theorem schemaSteps_read_back (e : Env) (evs : List Ev) (h : PlanText e evs) :
    StepsRead e.cur (schemaSteps evs)
      ((evs.filterMap Ev.dropSchema?).map (fun s => .dropSchemaCascade s.schemaName) ++
        (evs.filterMap Ev.createSchema?).map (fun s => .base (.createSchema s))) := by
  unfold schemaSteps
  simp only
  split
  · rename_i he
    simp only [Bool.and_eq_true, List.isEmpty_iff, List.map_eq_nil_iff] at he
    rw [he.1, he.2]; exact .nil _
  · refine .one (readStep_buffer (Texts.append ?_ ?_))
    · rw [List.map_map]
      exact texts_map _ _ _ fun s hs => dropSchemaCascade_isScript _ _ (h.dropSchemas s hs)
    · exact texts_map _ _ _ fun s hs => isScript_base
        (createSchema_reads_back .postgres e.cur s (Or.inl rfl) (h.createSchemas s hs))
        (by intro n as e; cases e)

/-- C66: the file of the tables. -/
theorem tableSteps_read_back (e : Env) (evs : List Ev) (h : PlanText e evs) :
    StepsRead e.cur (tableSteps e evs)
      ((evs.filterMap Ev.dropTable?).map (fun t =>
          .base (.dropTable (fullName e.cur t.tableSchema t.tableName))) ++
        (evs.filterMap Ev.createTable?).flatMap (createOf e)) := by
  unfold tableSteps
  simp only
  split
  · rename_i he
    simp only [Bool.and_eq_true, List.isEmpty_iff] at he
    rw [he.1, he.2]; exact .nil _
  · refine .one (readStep_buffer (Texts.append ?_ ?_))
    · exact texts_map _ _ _ fun t ht => isScript_base
        (dropTable_reads_back .postgres e.cur t (h.dropTables t ht).1 (h.dropTables t ht).2)
        (by intro n as e; cases e)
    · refine Texts.flatMap _ _ _ fun t ht => ?_
      obtain ⟨h1, h2⟩ := h.createTables t ht
      unfold createTableStmts createOf
      refine Texts.append (ss := [_]) (a := [_]) ?_ ?_
      · have := isScript_base (createTable_reads_back .postgres e.cur e.coll true t h1)
          (by intro n as e; cases e)
        exact Texts.one this.1 this.2
      · exact texts_map _ _ _ fun x hx =>
          createIndex_isScript e.cur false x (h2 x hx).1 (h2 x hx).2

/-- C66: the files of a Postgres migration, in their order, are read back as the statements of the
migration. -/
theorem sqlSteps_read_back (e : Env) (evs : List Ev) (h : PlanText e evs) :
    StepsRead e.cur (sqlSteps e evs) (plan e evs) := by
  have h1 := ((((dropFkeySteps_read_back e evs h).append (schemaSteps_read_back e evs h)).append
    (tableSteps_read_back e evs h)).append (StepsRead.flatMap (cur := e.cur) _ _ _ fun a ha =>
      alterTableSteps_read_back e a (h.alters a ha))).append
    ((addFastFkeySteps_read_back e evs h).append (addFkeySteps_read_back e evs h))
  unfold sqlSteps plan alterSteps
  simpa only [List.append_assoc] using h1

end Sqddl.Postgres
