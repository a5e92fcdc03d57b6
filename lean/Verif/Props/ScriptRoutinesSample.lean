import Verif.Props.ScriptRoutines
import Verif.Props.ScriptObjectsSample
import Verif.Model.Introspect

/-!
# C114: routines, views and triggers that are reported, and some that are lost
-/

namespace Sqddl.Scripts
open OwnSpec ObjectSpec RoutineSpec

/-! ## Postgres -/

/-- two functions of one name, a procedure and a function of an extension -/
def samplePgRoutines : PgRoutines :=
  { namespaces := [⟨1, b!"public"⟩]
    procs := [⟨10, 1, b!"area", 'f'⟩, ⟨11, 1, b!"area", 'f'⟩, ⟨12, 1, b!"clean", 'p'⟩, ⟨13, 1, b!"similarity", 'f'⟩]
    descriptions := [⟨10, 1255, 0, b!"of a circle"⟩]
    extensions := [⟨50, b!"pg_trgm"⟩]
    depends := [⟨1255, 13, 50, 'e'⟩, ⟨1255, 10, 2, 'n'⟩]
    arguments := fun n => if n = 11 then b!"integer, integer" else b!"integer"
    functiondef := fun n => if n = 12 then b!"CREATE PROCEDURE" else b!"CREATE FUNCTION"
    result := fun n => if n = 12 then none else some b!"integer" }

theorem samplePgRoutines_valid : PgRoutineValid samplePgRoutines :=
  ⟨by decide, by decide, by decide, by decide, by decide, by decide⟩

example : PgRoutineValid samplePgRoutines ∧ (∀ n ∈ samplePgRoutines.namespaces, PlainSchema n.nspname) ∧
    (∀ p ∈ samplePgRoutines.procs, p.prokind ≠ 'a') ∧
    (∀ d ∈ samplePgRoutines.descriptions, ∀ p ∈ samplePgRoutines.procs, d.objoid = p.oid →
      d.classoid = pgProcOid ∧ d.objsubid = 0) ∧
    (∀ d ∈ samplePgRoutines.depends, ∀ p ∈ samplePgRoutines.procs, d.objid = p.oid → d.deptype = 'e' →
      d.classid = pgProcOid) ∧
    (pgRoutines {} samplePgRoutines).map (·.map fun x =>
      (x.routineName, x.routineType, x.identityArguments, x.comment)) =
      some [(b!"area", b!"FUNCTION", b!"integer", b!"of a circle"), (b!"area", b!"FUNCTION", b!"integer, integer", []),
        (b!"clean", b!"PROCEDURE", b!"integer", [])] :=
  ⟨samplePgRoutines_valid, public_plain rfl, by decide, by decide, by decide, by rfl⟩

example : (samplePgRoutines.extensions.map (·.name)).Nodup ∧ pgExtensions [] [] samplePgRoutines = [b!"pg_trgm"] ∧
    pgExtensions [] [b!"pg_trgm"] samplePgRoutines = [] := ⟨by decide, by rfl, by rfl⟩

/-- C114: an aggregate that is asked for makes reading the routines fail. -/
theorem pg_aggregate_refuted (f : Filter) (c : PgRoutines) (p : PgProc) (n : PgNamespace) (hp : p ∈ c.procs)
    (hn : n ∈ c.namespaces) (ha : p.prokind = 'a') (hs : pgRoutineShown f c n p = true) : pgRoutines f c = none := by
  unfold pgRoutines
  rw [if_pos]
  simp only [List.any_eq_true, Bool.and_eq_true, beq_iff_eq]
  exact ⟨p, hp, ha, n, hn, hs⟩

/-- a database with an aggregate -/
def aggregateRoutines : PgRoutines :=
  { samplePgRoutines with procs := [⟨10, 1, b!"area", 'f'⟩, ⟨14, 1, b!"product", 'a'⟩] }

example : RoutineAsked {} aggregateRoutines ⟨1, b!"public"⟩ ⟨14, 1, b!"product", 'a'⟩ ∧
    pgRoutines {} aggregateRoutines = none := by
  refine ⟨⟨rfl, ?_, ⟨.inr ?_, .inl rfl, by decide⟩, .inl rfl, by decide⟩,
    pg_aggregate_refuted {} aggregateRoutines ⟨14, 1, b!"product", 'a'⟩ ⟨1, b!"public"⟩ (.tail _ (.head _)) (.head _)
      rfl (by rfl)⟩
  · unfold OfExtension aggregateRoutines samplePgRoutines
    decide
  · unfold PgOwn
    decide

/-- C114: a function is lost if a type of an extension has its number. -/
theorem pg_extension_number_refuted : ∃ c : PgRoutines, PgRoutineValid c ∧
    (∃ p ∈ c.procs, p.proname = b!"clean" ∧ ¬ OfExtension c p) ∧
    (pgRoutines {} c).map (·.map (·.routineName)) = some [b!"area", b!"area", b!"similarity"] :=
  ⟨{ samplePgRoutines with depends := [⟨1247, 12, 50, 'e'⟩] },
    ⟨by decide, by decide, by decide, by decide, by decide, by decide⟩,
    ⟨⟨12, 1, b!"clean", 'p'⟩, .tail _ (.tail _ (.head _)), rfl, by
      unfold OfExtension samplePgRoutines; decide⟩, by rfl⟩

/-- C114: a function is reported twice if another object with its number has a comment. -/
theorem pg_routine_twice_refuted : ∃ c : PgRoutines, PgRoutineValid c ∧
    (pgRoutines {} c).map (·.map fun x => (x.routineName, x.identityArguments, x.comment)) =
      some [(b!"area", b!"integer", b!"of a circle"), (b!"area", b!"integer", b!"of a table")] :=
  ⟨{ samplePgRoutines with
      procs := [⟨10, 1, b!"area", 'f'⟩]
      descriptions := [⟨10, 1255, 0, b!"of a circle"⟩, ⟨10, 1259, 0, b!"of a table"⟩] },
    ⟨by decide, by decide, by decide, by decide, by decide, by decide⟩, by rfl⟩

/-! ## MySQL -/

/-- two triggers, one of the server's own -/
def sampleMyTriggers : List MyTriggerRow :=
  [⟨b!"shop", b!"film", b!"stamp", b!"SET NEW.at = NOW()", b!"BEFORE", b!"INSERT"⟩,
    ⟨b!"sys", b!"sys_config", b!"sys_config_insert", b!"BEGIN END", b!"BEFORE", b!"INSERT"⟩]

example : (sampleMyTriggers.map fun g => (g.schema, g.name)).Nodup ∧
    (myTriggers {} sampleMyTriggers).map (fun x => (x.tableName, x.triggerName, x.attrs)) =
      [(b!"film", b!"stamp", [(b!"actionTiming", b!"BEFORE"), (b!"eventManipulation", b!"INSERT")])] :=
  ⟨by decide, by rfl⟩

/-! ## SQLite -/

/-- a view with a trigger, a table with one -/
def sampleLite : List LiteObject :=
  [⟨b!"table", b!"film", b!"film", b!"CREATE TABLE film(id)"⟩, ⟨b!"view", b!"titles", b!"titles", b!"CREATE VIEW titles"⟩,
    ⟨b!"trigger", b!"film", b!"stamp", b!"CREATE TRIGGER stamp"⟩,
    ⟨b!"trigger", b!"titles", b!"insert_title", b!"CREATE TRIGGER insert_title"⟩]

/-- the columns -/
def sampleLiteColumns (s : Str) : List (Str × Str) :=
  if s = b!"titles" then [(b!"title", b!"TEXT"), (b!"n", b!"INT")] else [(b!"id", b!"")]

theorem sampleLite_plain : ∀ m ∈ sampleLite, PlainTable m.tblName := by
  intro m hm
  simp only [sampleLite, List.mem_cons, List.not_mem_nil, or_false] at hm
  rcases hm with rfl | rfl | rfl | rfl <;> exact fun e => absurd e (by decide)

example : (∀ m ∈ sampleLite, PlainTable m.tblName) ∧
    (∀ m ∈ sampleLite, m.type = b!"trigger" → (m.sql.take 14).map Go.lowerC ≠ b!"create table '") ∧
    (∀ m ∈ sampleLite, m.type = b!"view" → (m.sql.take 14).map Go.lowerC ≠ b!"create table '") ∧
    (∀ m ∈ sampleLite, m.type = b!"view" → sampleLiteColumns m.tblName ≠ []) ∧
    (sampleLite.map fun m => (m.type, m.name)).Nodup ∧ (∀ m ∈ sampleLite, m.type = b!"view" → m.name = m.tblName) ∧
    (liteTriggers {} sampleLite).map (fun x => (x.tableName, x.triggerName)) =
      [(b!"film", b!"stamp"), (b!"titles", b!"insert_title")] ∧
    (liteViews {} sampleLiteColumns sampleLite).map (fun x => (x.viewName, x.sql, x.columns)) =
      [(b!"titles", b!"CREATE VIEW titles;", [b!"title", b!"n"])] :=
  ⟨sampleLite_plain, by decide, by decide, by decide, by decide, by decide, by rfl, by rfl⟩

/-- what the database of the sample answers -/
def sampleLiteServer : Introspect.Server :=
  { version := some b!"3.40.0"
    views := some { rows := (liteViews {} sampleLiteColumns sampleLite).map fun v => some { row := v } }
    tables := some { rows := [some { tableName := b!"film" }] }
    triggers := some { rows := (liteTriggers {} sampleLite).map fun g => some { row := g } } }

/-- the tables of a catalog with their triggers, and the views with theirs -/
def triggersIn (c : Catalog) : List (Str × List Str) :=
  c.schemas.flatMap fun s => (s.tables.map fun t => (t.tableName, t.triggers.map (·.triggerName))) ++
    s.views.map fun v => (v.viewName, v.triggers.map (·.triggerName))

/-- C114: in SQLite the trigger of a view is read but not kept: it is taken for one of a table, and there
is no such table. -/
theorem sqlite_view_trigger_refuted : ∃ rows : List LiteObject, ∃ s : Introspect.Server, ∃ cat,
    (∃ m ∈ rows, m.type = b!"trigger" ∧ m.tblName = b!"titles" ∧ m.name = b!"insert_title") ∧
    s.triggers = some { rows := (liteTriggers {} rows).map fun g => some { row := g } } ∧
    Introspect.writeCatalog (fun _ => false) .sqlite [] s {} = .ok cat ∧
    triggersIn cat = [(b!"film", [b!"stamp"]), (b!"titles", [])] := by
  refine ⟨sampleLite, sampleLiteServer, _, ⟨_, .tail _ (.tail _ (.tail _ (.head _))), rfl, rfl, rfl⟩, rfl, rfl, ?_⟩
  rfl

/-! ## SQL Server -/

/-- the columns of the view of `sampleMsObjects` -/
def sampleMsViewCols : List MsViewCol :=
  [⟨2, 2, b!"n", b!"int"⟩, ⟨1, 1, b!"id", b!"int"⟩, ⟨2, 1, b!"title", b!"nvarchar"⟩]

example : (∀ v ∈ sampleMsObjects none, v.type = b!"V" → ∃ k ∈ sampleMsViewCols, k.table = v.id) ∧
    (∀ v ∈ sampleMsObjects none, v.type = b!"V" → ∃ d, v.module = some (some d)) ∧
    (∀ v ∈ sampleMsObjects none, False ↔ Longer id b!"spt" v.name ∨ Longer id b!"msreplication" v.name) ∧
    (sampleMsViewCols.map fun k => (k.table, k.number)).Nodup ∧
    ((sampleMsObjects none).map fun v => (v.schema, v.name)).Nodup ∧
    (msViews id {} (sampleMsObjects none) sampleMsViewCols).map (·.map fun x => (x.viewName, x.sql, x.columns)) =
      some [(b!"titles", b!"CREATE VIEW", [b!"title", b!"n"])] := by
  refine ⟨by unfold sampleMsObjects; decide, ?_, by unfold Longer sampleMsObjects; decide, by decide, by decide, by rfl⟩
  intro g hg
  simp only [sampleMsObjects, List.mem_cons, List.not_mem_nil, or_false] at hg
  rcases hg with rfl | rfl | rfl | rfl
  · exact fun e => absurd e (by decide)
  · exact fun _ => ⟨_, rfl⟩
  · exact fun e => absurd e (by decide)
  · exact fun e => absurd e (by decide)

/-- C114: one encrypted view, and no view at all can be read. -/
theorem sqlserver_encrypted_view_refuted : ∃ (objects : List MsTrigObject) (cols : List MsViewCol),
    (∃ v ∈ objects, v.type = b!"V" ∧ v.module = some (some b!"CREATE VIEW")) ∧ msViews id {} objects cols = none :=
  ⟨⟨5, b!"dbo", b!"secret", b!"V", 0, some none⟩ :: sampleMsObjects none, ⟨5, 1, b!"x", b!"int"⟩ :: sampleMsViewCols,
    ⟨_, .tail _ (.tail _ (.head _)), rfl, rfl⟩, by rfl⟩

end Sqddl.Scripts
