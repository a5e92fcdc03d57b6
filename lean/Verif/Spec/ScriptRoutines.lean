import Verif.Model.ScriptRoutines
import Verif.Spec.ScriptObjects

/-!
# Routines, and the other views and triggers, as they were defined
-/

namespace Sqddl.Scripts.RoutineSpec
open OwnSpec ObjectSpec

/-- The number of the catalog table pg_proc, which comments on routines and dependencies of routines
refer to. -/
def pgProcOid : Nat := 1255

/-- What Postgres guarantees for its catalog. -/
structure PgRoutineValid (c : PgRoutines) : Prop where
  schemaIds : (c.namespaces.map (·.oid)).Nodup
  schemaNames : (c.namespaces.map (·.nspname)).Nodup
  routineIds : (c.procs.map (·.oid)).Nodup
  /-- routines of the same name differ in their arguments -/
  signatures : (c.procs.map fun p => (p.pronamespace, p.proname, c.arguments p.oid)).Nodup
  descriptions : (c.descriptions.map fun d => (d.objoid, d.classoid, d.objsubid)).Nodup
  extensionNames : (c.extensions.map (·.name)).Nodup

/-- the routine belongs to an extension -/
def OfExtension (c : PgRoutines) (p : PgProc) : Prop :=
  ∃ e ∈ c.extensions, ∃ d ∈ c.depends, d.classid = pgProcOid ∧ d.objid = p.oid ∧ d.refobjid = e.oid ∧ d.deptype = 'e'

/-- the comment of a routine -/
def RoutineComment (c : PgRoutines) (p : PgProc) (text : Str) : Prop :=
  (∃ d ∈ c.descriptions, d.objoid = p.oid ∧ d.classoid = pgProcOid ∧ d.objsubid = 0 ∧ text = d.description) ∨
  ((∀ d ∈ c.descriptions, ¬ (d.objoid = p.oid ∧ d.classoid = pgProcOid ∧ d.objsubid = 0)) ∧ text = [])

/-- the word for a kind of routine in Postgres -/
def KindWord (kind : Char) (word : Str) : Prop :=
  (kind = 'f' → word = b!"FUNCTION") ∧ (kind = 'p' → word = b!"PROCEDURE") ∧ (kind = 'w' → word = b!"WINDOW")

/-- the routine is asked for -/
def RoutineAsked (f : Filter) (c : PgRoutines) (n : PgNamespace) (p : PgProc) : Prop :=
  n.oid = p.pronamespace ∧ ¬ OfExtension c p ∧ SchemaAsked f n ∧ Wanted f.routines f.excludeRoutines p.proname

/-- `x` is the routine `p` as it was defined. -/
structure RoutineShown (c : PgRoutines) (n : PgNamespace) (p : PgProc) (x : Routine) : Prop where
  schema : x.routineSchema = n.nspname
  name : x.routineName = p.proname
  arguments : x.identityArguments = c.arguments p.oid
  type : KindWord p.prokind x.routineType
  sql : x.sql = c.functiondef p.oid ++ b!";"
  result : x.attrs = [(b!"returnType", (c.result p.oid).getD [])]
  comment : RoutineComment c p x.comment

/-- the view is asked for; `shipped` are those that the server brings along -/
def MsViewAsked (shipped : MsTrigObject → Prop) (f : ObjFilter) (v : MsTrigObject) : Prop :=
  v.type = b!"V" ∧ (f.system = true ∨ ¬ shipped v) ∧ Wanted f.schemas f.excludeSchemas v.schema ∧
    Wanted f.views f.excludeViews v.name

/-- `x` is the view `v` as it was defined, with its columns in their order. -/
structure MsViewIs (cols : List MsViewCol) (v : MsTrigObject) (x : View) : Prop where
  schema : x.viewSchema = v.schema
  name : x.viewName = v.name
  sql : v.module = some (some x.sql)
  columns : ∃ ks : List MsViewCol, (∀ k, k ∈ ks ↔ k ∈ cols ∧ k.table = v.id) ∧
    ks.Pairwise (fun a b => a.number < b.number) ∧ x.columns = ks.map (·.name) ∧ x.columnTypes = ks.map (·.type)

end Sqddl.Scripts.RoutineSpec
