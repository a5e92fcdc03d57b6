import Verif.Model.ScriptStored

/-!
# Model of the introspection scripts: the order of the rows

What the scripts sort by.  How a database compares names is a parameter.
-/

namespace Sqddl.Scripts
open Introspect (RoutineRow)

/-- ORDER BY table_schema, table_name (/repo/ddl/introspection_scripts/mysql_tables.sql:22-24,
postgres_tables.sql:24-26) -/
def tableOrder (r : Str × Str × Str) : List Str := [r.1, r.2.1]

/-- ORDER BY m.tbl_name (/repo/ddl/introspection_scripts/sqlite_tables.sql:24-25) -/
def liteTableOrder (r : Str) : List Str := [r]

/-- ORDER BY schemas.name, tables.name (/repo/ddl/introspection_scripts/sqlserver_tables.sql:22-24) -/
def msTableOrder (r : Str × Str) : List Str := [r.1, r.2]

/-- ORDER BY event_object_schema, event_object_table, trigger_name
(/repo/ddl/introspection_scripts/mysql_triggers.sql:25-28); tbl_name, name in SQLite, which has no schemas
(/repo/ddl/introspection_scripts/sqlite_triggers.sql:17-19) -/
def triggerOrder (r : Trigger) : List Str := [r.tableSchema, r.tableName, r.triggerName]

/-- ORDER BY extname (/repo/ddl/introspection_scripts/postgres_extensions.sql:13-14) -/
def extensionOrder (r : Str) : List Str := [r]

/-- ORDER BY schemas.nspname, pg_proc.proname (/repo/ddl/introspection_scripts/postgres_routines.sql:53-55) -/
def pgRoutineOrder (r : Routine) : List Str := [r.routineSchema, r.routineName]

/-- ORDER BY views.tbl_name (/repo/ddl/introspection_scripts/sqlite_views.sql:27-28); SQLite has no schemas -/
def liteViewOrder (r : View) : List Str := [r.viewName]

/-- ORDER BY schemas.name, routines.name (/repo/ddl/introspection_scripts/sqlserver_routines.sql:25-27) -/
def msStoredOrder (r : RoutineRow) : List Str := [r.row.routineSchema, r.row.routineName]

/-- ORDER BY schemas.nspname, tables.relname, pg_trigger.tgname
(/repo/ddl/introspection_scripts/postgres_triggers.sql:28-31) -/
def pgTriggerOrder (r : Trigger) : List Str := [r.tableSchema, r.tableName, r.triggerName]

/-- ORDER BY table_name, columns, constraint_type (/repo/ddl/introspection_scripts/sqlite_constraints.sql:140-143) -/
def liteForeignOrder (r : LiteForeign × List Str × List Str) : List Str :=
  [r.1.table, Go.join b!"," r.2.1, b!"FOREIGN KEY"]

end Sqddl.Scripts
