import Verif.Model.Ddl

/-!
# Model of the introspection scripts: which objects they report

The conditions of the queries in /repo/ddl/introspection_scripts for tables, indexes and routines,
over the catalog tables of the databases.  Simplified: the order of the rows and the columns that
describe an object further are left out; names are compared with `=` exactly.
-/

namespace Sqddl.Scripts

/-! ## SQL -/

/-- all ends of a text (used by `LIKE`, /repo/ddl/introspection_scripts/postgres_tables.sql:12) -/
def ends : Str → List Str
  | [] => [[]]
  | c :: r => (c :: r) :: ends r

/-- `text LIKE pattern` (/repo/ddl/introspection_scripts/postgres_tables.sql:12): `%` stands for any
text, `_` for any character; `fold` is the comparison of letters of the database. -/
def like (fold : Char → Char) : Str → Str → Bool
  | [] => fun s => s.isEmpty
  | x :: p => fun s =>
    if x = '%' then (ends s).any (like fold p)
    else match s with
      | [] => false
      | c :: r => (x == '_' || fold x == fold c) && like fold p r

/-- The filter of the scripts (/repo/ddl/database_introspector.go:1544-1612). -/
structure Filter where
  system : Bool := false
  schemas : List Str := []
  excludeSchemas : List Str := []
  tables : List Str := []
  excludeTables : List Str := []
  routines : List Str := []
  excludeRoutines : List Str := []

/-- `{{ if .Schemas }} AND x IN (...) {{ else if .ExcludeSchemas }} AND x NOT IN (...) {{ end }}`
(/repo/ddl/introspection_scripts/postgres_tables.sql:14-18, 19-23) -/
def passes (incl excl : List Str) (x : Str) : Bool :=
  if incl ≠ [] then incl.contains x
  else if excl ≠ [] then !excl.contains x
  else true

/-! ## Postgres -/

/-- a row of pg_namespace (/repo/ddl/introspection_scripts/postgres_tables.sql:7) -/
structure PgNamespace where
  oid : Nat
  nspname : Str

/-- a row of pg_class (/repo/ddl/introspection_scripts/postgres_tables.sql:6) -/
structure PgClass where
  oid : Nat
  relnamespace : Nat
  relname : Str
  relkind : Char

/-- a row of pg_description (/repo/ddl/introspection_scripts/postgres_tables.sql:8) -/
structure PgDescription where
  objoid : Nat
  classoid : Nat
  objsubid : Nat
  description : Str

/-- a row of pg_index (/repo/ddl/introspection_scripts/postgres_indexes.sql:29-31) -/
structure PgIndex where
  indexrelid : Nat
  indrelid : Nat

/-- a row of pg_constraint (/repo/ddl/introspection_scripts/postgres_indexes.sql:42-43); `made` is the
index that was made for a primary key, unique or exclusion constraint (`conindid`), `none` for others. -/
structure PgConstraint where
  conname : Str
  made : Option Nat

/-- the catalog tables of Postgres (/repo/ddl/introspection_scripts/postgres_tables.sql:5-8,
postgres_indexes.sql:28-45) -/
structure PgTables where
  namespaces : List PgNamespace
  classes : List PgClass
  descriptions : List PgDescription
  indexes : List PgIndex
  constraints : List PgConstraint

/-- /repo/ddl/introspection_scripts/postgres_tables.sql:11-18 -/
def pgShown (f : Filter) (schema : Str) : Bool :=
  (f.system || (schema != b!"information_schema" && !like id b!"pg_%" schema)) &&
  passes f.schemas f.excludeSchemas schema

/-- `LEFT JOIN pg_description ON pg_description.objoid = tables.oid`
(/repo/ddl/introspection_scripts/postgres_tables.sql:4 and 8) -/
def pgComments (c : PgTables) (oid : Nat) : List Str :=
  match c.descriptions.filter (fun d => d.objoid == oid) with
  | [] => [[]]
  | ds => ds.map (·.description)

/-- /repo/ddl/introspection_scripts/postgres_tables.sql: schema, table and comment. -/
def pgTables (f : Filter) (c : PgTables) : List (Str × Str × Str) :=
  c.classes.flatMap fun t => c.namespaces.flatMap fun n =>
    if n.oid == t.relnamespace && t.relkind == 'r' && pgShown f n.nspname &&
        passes f.tables f.excludeTables t.relname then
      (pgComments c t.oid).map fun d => (n.nspname, t.relname, d)
    else []

/-- /repo/ddl/introspection_scripts/postgres_indexes.sql: schema, table and index. -/
def pgIndexes (f : Filter) (c : PgTables) : List (Str × Str × Str) :=
  c.indexes.flatMap fun x => c.classes.flatMap fun i => c.classes.flatMap fun t =>
    c.namespaces.flatMap fun n =>
      if i.oid == x.indexrelid && t.oid == x.indrelid && n.oid == t.relnamespace &&
          !c.constraints.any (fun k => k.conname == i.relname) && pgShown f n.nspname &&
          passes f.tables f.excludeTables t.relname then
        [(n.nspname, t.relname, i.relname)]
      else []

/-! ## MySQL -/

/-- the rows of information_schema that the scripts read: tables (schema, name, type, comment),
statistics and constraints (schema, table, name), routines and parameters (schema, name)
(/repo/ddl/introspection_scripts/mysql_tables.sql:1-8, mysql_indexes.sql:23-31,
mysql_routines.sql:13-31) -/
structure MyTables where
  tables : List (Str × Str × Str × Str)
  statistics : List (Str × Str × Str)
  constraints : List (Str × Str × Str)
  routines : List (Str × Str)
  parameters : List (Str × Str)

/-- /repo/ddl/introspection_scripts/mysql_tables.sql:9-16 -/
def myShown (f : Filter) (schema : Str) : Bool :=
  (f.system || ![b!"mysql", b!"information_schema", b!"performance_schema", b!"sys"].contains schema) &&
  passes f.schemas f.excludeSchemas schema

/-- /repo/ddl/introspection_scripts/mysql_tables.sql: schema, table and comment. -/
def myTables (f : Filter) (c : MyTables) : List (Str × Str × Str) :=
  c.tables.filterMap fun t =>
    if t.2.2.1 == b!"BASE TABLE" && myShown f t.1 && passes f.tables f.excludeTables t.2.1 then
      some (t.1, t.2.1, t.2.2.2)
    else none

/-- /repo/ddl/introspection_scripts/mysql_indexes.sql: schema, table and index, before grouping. -/
def myIndexes (f : Filter) (c : MyTables) : List (Str × Str × Str) :=
  c.statistics.filter fun i =>
    !c.constraints.any (fun k => k.2.2 == i.2.2) && myShown f i.1 && passes f.tables f.excludeTables i.2.1

/-- /repo/ddl/introspection_scripts/mysql_routines.sql: schema and name.  The join with the grouped
parameters. -/
def myRoutines (f : Filter) (c : MyTables) : List (Str × Str) :=
  c.routines.filter fun r =>
    c.parameters.any (fun p => p.1 == r.1 && p.2 == r.2) && myShown f r.1 &&
    passes f.routines f.excludeRoutines r.2

/-! ## SQLite -/

/-- a row of sqlite_schema (/repo/ddl/introspection_scripts/sqlite_tables.sql:1-7) -/
structure LiteRow where
  type : Str
  tblName : Str
  sql : Str

/-- sqlite_schema, pragma_table_list (schema, name, type) and pragma_table_xinfo
(/repo/ddl/introspection_scripts/sqlite_tables.sql:5, 13-15, sqlite_columns.sql:24) -/
structure LiteTables where
  rows : List LiteRow
  tableList : List (Str × Str × Str)
  columns : Str → List Str

/-- /repo/ddl/introspection_scripts/sqlite_tables.sql; `old`: the version is lower than 3.37. -/
def liteTables (old : Bool) (f : Filter) (c : LiteTables) : List Str :=
  (c.rows.filter fun m =>
    m.type == b!"table" &&
    (f.system ||
      if old then !like Go.lowerC b!"sqlite_%" m.tblName && !like Go.lowerC b!"CREATE TABLE '%" m.sql
      else !like Go.lowerC b!"sqlite_%" m.tblName &&
        c.tableList.any (fun t => (t.2.2 == b!"table" || t.2.2 == b!"virtual") && t.1 == b!"main" &&
          t.2.1 == m.tblName)) &&
    passes f.tables f.excludeTables m.tblName).map (·.tblName)

/-- /repo/ddl/introspection_scripts/sqlite_columns.sql: table and column. -/
def liteColumns (f : Filter) (c : LiteTables) : List (Str × Str) :=
  (c.rows.filter fun m =>
    m.type == b!"table" &&
    (f.system || (!like Go.lowerC b!"sqlite_%" m.tblName && !like Go.lowerC b!"CREATE TABLE '%" m.sql)) &&
    passes f.tables f.excludeTables m.tblName).flatMap fun m => (c.columns m.tblName).map (m.tblName, ·)

/-! ## SQL Server -/

/-- a row of sys.objects with the name of its schema
(/repo/ddl/introspection_scripts/sqlserver_tables.sql:4-6) -/
structure MsObject where
  schema : Str
  name : Str
  type : Str

/-- /repo/ddl/introspection_scripts/sqlserver_tables.sql: schema and table. -/
def msTables (fold : Char → Char) (f : Filter) (objects : List MsObject) : List (Str × Str) :=
  (objects.filter fun o =>
    o.type == b!"U" &&
    (f.system || (!like fold b!"spt_%" o.name && !like fold b!"msreplication_%" o.name)) &&
    passes f.schemas f.excludeSchemas o.schema && passes f.tables f.excludeTables o.name).map
      fun o => (o.schema, o.name)

/-- /repo/ddl/introspection_scripts/sqlserver_routines.sql: schema and routine.  Every routine has a row in
sys.sql_modules. -/
def msRoutines (fold : Char → Char) (f : Filter) (objects : List MsObject) : List (Str × Str) :=
  (objects.filter fun o =>
    [b!"P", b!"FN", b!"IF", b!"TF"].contains o.type &&
    (f.system || !like fold b!"sp_%" o.name) &&
    passes f.schemas f.excludeSchemas o.schema && passes f.routines f.excludeRoutines o.name).map
      fun o => (o.schema, o.name)

end Sqddl.Scripts
