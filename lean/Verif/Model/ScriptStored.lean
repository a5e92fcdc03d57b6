import Verif.Model.ScriptRoutines
import Verif.Model.Introspect

/-!
# Model of the introspection scripts: routines of MySQL and SQL Server

The queries in /repo/ddl/introspection_scripts/mysql_routines.sql and sqlserver_routines.sql; the rows are
read by `Introspect.getRoutines`.  The order of the routines and the limit of 1024 bytes of
`group_concat` are left out.
-/

namespace Sqddl.Scripts
open Introspect

/-! ## MySQL -/

/-- a row of information_schema.routines; the definition is NULL for users who may not see it
(/repo/ddl/introspection_scripts/mysql_routines.sql:2-14) -/
structure MyStored where
  schema : Str
  name : Str
  type : Str
  result : Option Str
  definition : Option Str
  comment : Str
  body : Str
  deterministic : Str
  access : Str
  security : Str
  deriving DecidableEq

/-- a row of information_schema.parameters; the row of the result of a function has the number 0 and
neither mode nor name (/repo/ddl/introspection_scripts/mysql_routines.sql:16-27) -/
structure MyParam where
  schema : Str
  routine : Str
  routineType : Str
  number : Nat
  mode : Option Str
  name : Option Str
  type : Str
  deriving DecidableEq

/-- `CASE … CONCAT(parameter_mode, ' ') END` (/repo/ddl/introspection_scripts/mysql_routines.sql:20) -/
def myParamMode (p : MyParam) : Option Str :=
  if p.routineType = b!"FUNCTION" then some [] else p.mode.map (· ++ b!" ")

/-- what `group_concat` takes from a row; `none` is NULL
(/repo/ddl/introspection_scripts/mysql_routines.sql:19-22) -/
def myParamText (p : MyParam) : Option Str :=
  match myParamMode p, p.name with
  | some m, some n => some (m ++ (n ++ b!" ") ++ p.type)
  | _, _ => none

/-- `group_concat(… SEPARATOR '|')`, which leaves out NULL and is NULL if nothing is left
(/repo/ddl/introspection_scripts/mysql_routines.sql:19-25) -/
def myParamTexts (ps : List (Option Str)) : Option Str :=
  if ps.filterMap id = [] then none else some (Go.join b!"|" (ps.filterMap id))

/-- a row, `none` if it cannot be read because the parameters or the definition are NULL
(/repo/ddl/introspection_scripts/mysql_routines.sql:2-12, database_introspector.go:1191-1217) -/
def myStoredRow (r : MyStored) (parameters : Option Str) : Option RoutineRow :=
  match parameters, r.definition with
  | some t, some d => some
      { row :=
          { routineSchema := r.schema, routineName := r.name, routineType := r.type, sql := d
            comment := r.comment }
        returnType := r.result.getD []
        parameters := t
        routineBody := r.body
        isDeterministic := r.deterministic == b!"YES"
        sqlDataAccess := r.access
        securityType := r.security }
  | _, _ => none

/-- The parameters of each name (/repo/ddl/introspection_scripts/mysql_routines.sql:16-31). -/
def myParamGroups (params : List MyParam) : List ((Str × Str) × List (Option Str)) :=
  grouped (params.map fun p => ((p.schema, p.routine), p.number, myParamText p))

/-- The rows (/repo/ddl/introspection_scripts/mysql_routines.sql). -/
def myStored (f : Filter) (routines : List MyStored) (params : List MyParam) : List (Option RoutineRow) :=
  routines.flatMap fun r => (myParamGroups params).flatMap fun g =>
    if g.1 == (r.schema, r.name) && (myShown f r.schema && passes f.routines f.excludeRoutines r.name) then
      [myStoredRow r (myParamTexts g.2)]
    else []

/-! ## SQL Server -/

/-- the conditions on a routine (/repo/ddl/introspection_scripts/sqlserver_routines.sql:10-23) -/
def msStoredShown (fold : Char → Char) (f : Filter) (o : MsTrigObject) : Bool :=
  [b!"P", b!"FN", b!"IF", b!"TF"].contains o.type && (f.system || !like fold b!"sp_%" o.name) &&
  passes f.schemas f.excludeSchemas o.schema && passes f.routines f.excludeRoutines o.name

/-- a row (/repo/ddl/introspection_scripts/sqlserver_routines.sql:2-5) -/
def msStoredRow (o : MsTrigObject) (definition : Str) : RoutineRow :=
  { row :=
      { routineSchema := o.schema, routineName := o.name
        routineType := if o.type = b!"P" then b!"PROCEDURE" else b!"FUNCTION"
        sql := definition } }

/-- The rows; `none`: the definition is NULL (/repo/ddl/introspection_scripts/sqlserver_routines.sql). -/
def msStored (fold : Char → Char) (f : Filter) (objects : List MsTrigObject) : List (Option RoutineRow) :=
  (objects.filter (msStoredShown fold f)).flatMap fun o =>
    o.module.toList.map fun d => d.map (msStoredRow o)

end Sqddl.Scripts
