import Verif.Model.ScriptObjects

/-!
# Model of the introspection scripts: routines and extensions of Postgres, the other views and triggers

The queries in /repo/ddl/introspection_scripts/postgres_routines.sql (for version 11 and later),
postgres_extensions.sql, mysql_triggers.sql, sqlite_triggers.sql, sqlite_views.sql and
sqlserver_views.sql.  The order of the objects is left out.
-/

namespace Sqddl.Scripts

/-! ## Postgres -/

/-- a row of pg_proc (/repo/ddl/introspection_scripts/postgres_routines.sql:2-24) -/
structure PgProc where
  oid : Nat
  pronamespace : Nat
  proname : Str
  prokind : Char
  deriving DecidableEq

/-- a row of pg_depend (/repo/ddl/introspection_scripts/postgres_routines.sql:34-38) -/
structure PgDepend where
  classid : Nat
  objid : Nat
  refobjid : Nat
  deptype : Char
  deriving DecidableEq

/-- what the scripts use (/repo/ddl/introspection_scripts/postgres_routines.sql:19-35,
postgres_extensions.sql:2-5) -/
structure PgRoutines where
  namespaces : List PgNamespace
  procs : List PgProc
  descriptions : List PgDescription
  extensions : List PgNamed
  depends : List PgDepend
  /-- `pg_get_function_identity_arguments(routine)` -/
  arguments : Nat → Str
  /-- `pg_get_functiondef(routine)`, which is an error for an aggregate -/
  functiondef : Nat → Str
  /-- `pg_get_function_result(routine)`, NULL for a procedure -/
  result : Nat → Option Str

/-- the type of a routine (/repo/ddl/introspection_scripts/postgres_routines.sql:12-17) -/
def pgRoutineType (kind : Char) : Str :=
  if kind = 'a' then b!"AGGREGATE" else if kind = 'w' then b!"WINDOW" else if kind = 'p' then b!"PROCEDURE"
  else b!"FUNCTION"

/-- a routine of an extension: the number of the object is compared, not the table that it is in
(/repo/ddl/introspection_scripts/postgres_routines.sql:28-39) -/
def pgOfExtension (c : PgRoutines) (p : PgProc) : Bool :=
  c.extensions.any fun e => c.depends.any fun d =>
    d.refobjid == e.oid && d.objid == p.oid && d.deptype == 'e'

/-- the conditions on a routine and its schema (/repo/ddl/introspection_scripts/postgres_routines.sql:25-52) -/
def pgRoutineShown (f : Filter) (c : PgRoutines) (n : PgNamespace) (p : PgProc) : Bool :=
  n.oid == p.pronamespace && !pgOfExtension c p && pgShown f n.nspname && passes f.routines f.excludeRoutines p.proname

/-- one row (/repo/ddl/introspection_scripts/postgres_routines.sql:2-22, database_introspector.go:1173-1190) -/
def pgRoutineRow (c : PgRoutines) (n : PgNamespace) (p : PgProc) (d : Option PgDescription) : Routine :=
  { routineSchema := n.nspname
    routineName := p.proname
    identityArguments := c.arguments p.oid
    routineType := pgRoutineType p.prokind
    sql := c.functiondef p.oid ++ b!";"
    attrs := [(b!"returnType", (c.result p.oid).getD [])]
    comment := (d.map (·.description)).getD [] }

/-- The routines; every description of the number of the routine gives a row. `none`: an error, because
the definition of an aggregate is asked for (/repo/ddl/introspection_scripts/postgres_routines.sql). -/
def pgRoutines (f : Filter) (c : PgRoutines) : Option (List Routine) :=
  if c.procs.any fun p => p.prokind == 'a' && c.namespaces.any fun n => pgRoutineShown f c n p then none
  else some (c.procs.flatMap fun p => c.namespaces.flatMap fun n =>
    if pgRoutineShown f c n p then
      (leftJoin c.descriptions fun d => d.objoid == p.oid).map (pgRoutineRow c n p)
    else [])

/-- The names of the extensions (/repo/ddl/introspection_scripts/postgres_extensions.sql,
database_introspector.go:943-950); the lists of the filter are given. -/
def pgExtensions (incl excl : List Str) (c : PgRoutines) : List Str :=
  (c.extensions.filter fun e => passes incl excl e.name).map (·.name)

/-! ## MySQL -/

/-- a row of information_schema.triggers (/repo/ddl/introspection_scripts/mysql_triggers.sql:2-9) -/
structure MyTriggerRow where
  schema : Str
  table : Str
  name : Str
  statement : Str
  timing : Str
  event : Str
  deriving DecidableEq

/-- The triggers (/repo/ddl/introspection_scripts/mysql_triggers.sql, database_introspector.go:1365-1382). -/
def myTriggers (f : Filter) (rows : List MyTriggerRow) : List Trigger :=
  (rows.filter fun g => myShown f g.schema && passes f.tables f.excludeTables g.table).map fun g =>
    { tableSchema := g.schema, tableName := g.table, triggerName := g.name, sql := g.statement
      attrs := [(b!"actionTiming", g.timing), (b!"eventManipulation", g.event)] }

/-! ## SQLite -/

/-- a row of sqlite_schema (/repo/ddl/introspection_scripts/sqlite_triggers.sql:2-8, sqlite_views.sql:8-13) -/
structure LiteObject where
  type : Str
  tblName : Str
  name : Str
  sql : Str
  deriving DecidableEq

/-- the condition without system catalogs (/repo/ddl/introspection_scripts/sqlite_triggers.sql:9-11,
sqlite_views.sql:14-16) -/
def liteShown (system : Bool) (m : LiteObject) : Bool :=
  system || (!like Go.lowerC b!"sqlite_%" m.tblName && !like Go.lowerC b!"CREATE TABLE '%" m.sql)

/-- The triggers (/repo/ddl/introspection_scripts/sqlite_triggers.sql, database_introspector.go:1338-1342). -/
def liteTriggers (f : Filter) (rows : List LiteObject) : List Trigger :=
  (rows.filter fun m => m.type == b!"trigger" && liteShown f.system m && passes f.tables f.excludeTables m.tblName).map
    fun m => { tableName := m.tblName, triggerName := m.name, sql := m.sql ++ b!";" }

/-- The views; `columns` is pragma_table_xinfo, names and types in the order in which it gives them. The
names of views are unique, so that grouping is done for each view
(/repo/ddl/introspection_scripts/sqlite_views.sql). -/
def liteViews (f : ObjFilter) (columns : Str → List (Str × Str)) (rows : List LiteObject) : List View :=
  (rows.filter fun m => m.type == b!"view" && liteShown f.system m && passes f.views f.excludeViews m.tblName &&
      !(columns m.tblName).isEmpty).map
    fun m => { viewName := m.tblName, sql := m.sql ++ b!";", columns := (columns m.tblName).map (·.1)
               columnTypes := (columns m.tblName).map (·.2) }

/-! ## SQL Server -/

/-- a row of sys.columns: table, number, name and `TYPE_NAME(user_type_id)`
(/repo/ddl/introspection_scripts/sqlserver_views.sql:12-17) -/
structure MsViewCol where
  table : Nat
  number : Nat
  name : Str
  type : Str
  deriving DecidableEq

/-- the conditions on a view (/repo/ddl/introspection_scripts/sqlserver_views.sql:19-33) -/
def msViewShown (fold : Char → Char) (f : ObjFilter) (v : MsTrigObject) : Bool :=
  v.type == b!"V" && (f.system || (!like fold b!"spt_%" v.name && !like fold b!"msreplication_%" v.name)) &&
  passes f.schemas f.excludeSchemas v.schema && passes f.views f.excludeViews v.name

/-- a row (/repo/ddl/introspection_scripts/sqlserver_views.sql:2-6) -/
def msViewRow (v : MsTrigObject) (cols : List MsViewCol) (definition : Str) : View :=
  { viewSchema := v.schema
    viewName := v.name
    sql := definition
    columns := cols.map (·.name)
    columnTypes := cols.map (·.type) }

/-- The rows of the views; `none`: a row whose definition is NULL
(/repo/ddl/introspection_scripts/sqlserver_views.sql). -/
def msViewRows (fold : Char → Char) (f : ObjFilter) (objects : List MsTrigObject) (cols : List MsViewCol) :
    List (Option View) :=
  objects.flatMap fun v =>
    (grouped (cols.map fun k => (k.table, k.number, k))).flatMap fun g =>
      if g.1 == v.id && msViewShown fold f v then v.module.toList.map fun d => d.map (msViewRow v g.2) else []

/-- The views; `none`: an error, because a row cannot be read
(/repo/ddl/database_introspector.go:1477-1482). -/
def msViews (fold : Char → Char) (f : ObjFilter) (objects : List MsTrigObject) (cols : List MsViewCol) :
    Option (List View) :=
  if (msViewRows fold f objects cols).any Option.isNone then none
  else some ((msViewRows fold f objects cols).filterMap id)

end Sqddl.Scripts
