import Verif.Model.MigrationFiles

/-!
# The files of a SQL Server migration

`(m *sqlserverMigration) sql`: /repo/ddl/sqlserver_migration.go:447-795.  The fields of `m` are the
events of `mssqlEvents`, with the foreign keys grouped by `mssqlFkeys`; buffers that come from the
pool are reset before use.  The names of objects become part of file names as they are.
-/

namespace Sqddl.Sqlserver
open Go Sqddl.Files Sqddl.Render
open Sqddl.Wipe (qualified buffer)

/-- What `sql` needs to know: `m.currentSchema` and `m.defaultCollation`
(/repo/ddl/sqlserver_migration.go:61-62) -/
structure Env where
  cur : Str := []
  coll : Str := []

/-- `tableName`: /repo/ddl/sqlserver_migration.go:479-482, 559-562, 589-593, 606-609,
762-765, 785-788 -/
def tableSql (e : Env) (s n : Str) : Str := qualified .sqlserver e.cur s n

/-- `name = schema + "_" + name`: /repo/ddl/sqlserver_migration.go:454-462, 588-593 -/
def fileTable (e : Env) (s n : Str) : Str :=
  (if s ≠ [] ∧ s ≠ e.cur then s ++ b!"_" else []) ++ n

/-- `getTablesName`: /repo/ddl/sqlserver_migration.go:451-463 -/
def tablesName (e : Env) (c : Constraint) : Str :=
  fileTable e c.tableSchema c.tableName ++ b!"_" ++ fileTable e c.referencesSchema c.referencesTable

/-- `fkeys[0]`, /repo/ddl/sqlserver_migration.go:468, 751, 774; a group is never empty. -/
def firstFkey (g : List Constraint) : Constraint := g.headD {}

/-- /repo/ddl/sqlserver_migration.go:478-483 -/
def dropFkey (e : Env) (c : Constraint) : Str :=
  b!"ALTER TABLE " ++ tableSql e c.tableSchema c.tableName ++ b!" DROP CONSTRAINT " ++
  quoteIdentifier .sqlserver c.constraintName ++ b!";\n"

/-- DROP FOREIGN KEY: /repo/ddl/sqlserver_migration.go:465-485 -/
def dropFkeySteps (e : Env) (gs : List (List Constraint)) : List (List File) :=
  gs.map fun g => [(b!"_drop_" ++ tablesName e (firstFkey g) ++ b!"_fkeys.tx.sql",
    buffer (g.map (dropFkey e)))]

/-- `"DROP FUNCTION"` or `"DROP PROCEDURE"`: /repo/ddl/sqlserver_migration.go:518-522 -/
def dropRoutineWords (r : Routine) : Str :=
  if r.routineType = b!"FUNCTION" then b!"DROP FUNCTION " else b!"DROP PROCEDURE "

/-- DROP SCHEMA with everything that the schema has, ignored or not; the name of the schema is that
of the schema, not that of its objects: /repo/ddl/sqlserver_migration.go:495-528 -/
def dropSchemaStmts (e : Env) (s : Schema) : List Str :=
  s.views.map (fun v => b!"DROP VIEW " ++ tableSql e s.schemaName v.viewName ++ b!";\n") ++
  s.tables.map (fun t => b!"DROP TABLE " ++ tableSql e s.schemaName t.tableName ++ b!";\n") ++
  s.routines.map (fun r => dropRoutineWords r ++ tableSql e s.schemaName r.routineName ++ b!";\n") ++
  [b!"DROP SCHEMA " ++ quoteIdentifier .sqlserver s.schemaName ++ b!";\n"]

/-- /repo/ddl/sqlserver_migration.go:487-529 -/
def dropSchemaSteps (e : Env) (evs : List Ev) : List (List File) :=
  (evs.filterMap Ev.dropSchema?).map fun s =>
    [(b!"_drop_" ++ s.schemaName ++ b!".sql", buffer (dropSchemaStmts e s))]

/-- /repo/ddl/sqlserver_migration.go:531-545 -/
def createSchemaSteps (evs : List Ev) : List (List File) :=
  let created := evs.filterMap Ev.createSchema?
  if created.isEmpty then []
  else [[(b!"_create_schemas.sql", buffer (created.map (createSchema .sqlserver)))]]

/-- /repo/ddl/sqlserver_migration.go:559-563 -/
def dropTable (e : Env) (t : Table) : Str :=
  b!"DROP TABLE " ++ tableSql e t.tableSchema t.tableName ++ b!";\n"

/-- CREATE TABLE and the indexes of the table: /repo/ddl/sqlserver_migration.go:569-575 -/
def createTableStmts (e : Env) (t : Table) : List Str :=
  createTable .sqlserver e.cur e.coll t true ::
    t.indexes.map fun x => createIndex .sqlserver e.cur x false

/-- DROP TABLE and CREATE TABLE: /repo/ddl/sqlserver_migration.go:547-577 -/
def tableSteps (e : Env) (evs : List Ev) : List (List File) :=
  let dropped := evs.filterMap Ev.dropTable?
  let created := evs.filterMap Ev.createTable?
  if dropped.isEmpty && created.isEmpty then []
  else
    [[(b!"_tables.sql",
        buffer (dropped.map (dropTable e) ++ created.flatMap (createTableStmts e)))]]

/-- `alterTable.tableSchema`: /repo/ddl/sqlserver_migration.go:208, 212-217 -/
def alterSchema (e : Env) (t : Table) : Str :=
  if t.tableSchema ≠ [] then t.tableSchema else if e.cur ≠ [] then e.cur else b!"dbo"

/-- `"ALTER TABLE " + tableName`: /repo/ddl/sqlserver_migration.go:589-593, 619 and the like -/
def alterPrefix (e : Env) (t : Table) : Str :=
  b!"ALTER TABLE " ++ tableSql e (alterSchema e t) t.tableName

/-- DROP INDEX: /repo/ddl/sqlserver_migration.go:600-611 -/
def dropIndex (e : Env) (x : Index) : Str :=
  b!"DROP INDEX " ++ quoteIdentifier .sqlserver x.indexName ++ b!" ON " ++
  tableSql e x.tableSchema x.tableName ++ b!";\n"

/-- `isPkeyColumn`: /repo/ddl/sqlserver_migration.go:581-586 and `alterTable.pkey`, 337-344.  The columns of the last
primary key of the table. -/
def pkeyColumns (t : Table) : List Str :=
  ((t.constraints.filter fun c => !c.ignore && c.constraintType = PRIMARY_KEY).getLast?.map
    fun c => c.columns).getD []

/-- `nullability`: /repo/ddl/sqlserver_migration.go:660-670.  Line 666 is never reached. -/
def nullability (pkey : List Str) (s t : Column) : Str :=
  if pkey.contains t.columnName ∨ t.columnIdentity ≠ [] then b!"NOT NULL"
  else if s.isNotNull && !t.isNotNull then b!"NULL"
  else []

/-- `collation`: /repo/ddl/sqlserver_migration.go:655-659 -/
def alterCollation (e : Env) (t : Column) : Str :=
  if t.collationName ≠ [] ∧ t.collationName ≠ e.coll then escapeQuote '[' t.collationName else []

/-- ALTER COLUMN without the default: /repo/ddl/sqlserver_migration.go:646-686 -/
def alterTypeStmts (e : Env) (pre : Str) (pkey : List Str) (s t : Column) : List Str :=
  if normType .sqlserver s.columnType ≠ normType .sqlserver t.columnType ∨
      alterCollation e t ≠ [] ∨ nullability pkey s t ≠ [] then
    [pre ++ b!" ALTER COLUMN " ++ quoteIdentifier .sqlserver t.columnName ++ b!" " ++ t.columnType ++
      opt (decide (alterCollation e t ≠ [])) (b!" COLLATE " ++ alterCollation e t) ++
      opt (decide (nullability pkey s t ≠ [])) (b!" " ++ nullability pkey s t) ++ b!";\n"]
  else []

/-- The beginning of the block that drops the default of a column:
/repo/ddl/sqlserver_migration.go:696-706.  The columns are joined by their number only. -/
def lookupText : Str :=
  b!"BEGIN\n    DECLARE @name NVARCHAR(255);\n    SELECT\n        @name = default_constraints.name\n    FROM\n        sys.default_constraints\n        JOIN sys.tables ON tables.object_id = default_constraints.parent_object_id\n        JOIN sys.columns ON columns.column_id = default_constraints.parent_column_id\n    WHERE\n        SCHEMA_NAME(tables.schema_id) = "

/-- The block that drops the default of a column: /repo/ddl/sqlserver_migration.go:696-711 -/
def dropDefault (e : Env) (t : Table) (c : Column) : Str :=
  lookupText ++ b!"'" ++
  escapeQuote '\'' (alterSchema e t) ++ b!"'\n        AND tables.name = '" ++
  escapeQuote '\'' t.tableName ++ b!"'\n        AND columns.name = '" ++
  escapeQuote '\'' c.columnName ++ b!"'\n    ;\n    EXEC('ALTER TABLE " ++
  escapeQuote '\'' (tableSql e (alterSchema e t) t.tableName) ++
  b!" DROP CONSTRAINT ' + @name);\nEND;\n"

/-- The change of the default: /repo/ddl/sqlserver_migration.go:687-720 -/
def alterDefaultStmts (e : Env) (a : Table) (s t : Column) : List Str :=
  let sd := normalizeColumnDefault .sqlserver s.columnDefault
  let td := normalizeColumnDefault .sqlserver t.columnDefault
  if sd = td then []
  else
    (if sd ≠ [] then [dropDefault e a t] else []) ++
    (if td ≠ [] then
      [alterPrefix e a ++ b!" ADD DEFAULT " ++ td ++ b!" FOR " ++
        quoteIdentifier .sqlserver t.columnName ++ b!";\n"] else [])

/-- ALTER COLUMN: /repo/ddl/sqlserver_migration.go:644-721 -/
def alterColumnStmts (e : Env) (a : Table) (p : Column × Column) : List Str :=
  alterTypeStmts e (alterPrefix e a) (pkeyColumns a) p.1 p.2 ++ alterDefaultStmts e a p.1 p.2

/-- The first file of an ALTER TABLE: /repo/ddl/sqlserver_migration.go:600-721 -/
def alterStmts (e : Env) (a : AlterTable) : List Str :=
  a.dropIndexes.map (dropIndex e) ++
  a.dropConstraints.map (fun c => alterPrefix e a.destTable ++ b!" DROP CONSTRAINT " ++
    quoteIdentifier .sqlserver c.constraintName ++ b!";\n") ++
  a.dropColumns.map (fun c => alterPrefix e a.destTable ++ b!" DROP COLUMN " ++
    quoteIdentifier .sqlserver c.columnName ++ b!";\n") ++
  a.addColumns.map (fun c => alterPrefix e a.destTable ++ b!" ADD " ++
    columnDef .sqlserver e.coll c false ++ b!";\n") ++
  a.alterColumns.flatMap (alterColumnStmts e a.destTable)

/-- The files of one ALTER TABLE: /repo/ddl/sqlserver_migration.go:579-746 -/
def alterTableSteps (e : Env) (a : AlterTable) : List (List File) :=
  [[(b!"_alter_" ++ fileTable e (alterSchema e a.destTable) a.destTable.tableName ++ b!".tx.sql",
      buffer (alterStmts e a))]] ++
  a.createIndexes.map (fun x =>
    [(b!"_create_" ++ x.indexName ++ b!".tx.sql", createIndex .sqlserver e.cur x true)]) ++
  a.addConstraints.map fun c =>
    [(b!"_add_" ++ c.constraintName ++ b!".tx.sql",
      alterPrefix e a.destTable ++ b!" ADD " ++ constraintDef .sqlserver e.cur c ++ b!";\n")]

/-- ALTER TABLE: /repo/ddl/sqlserver_migration.go:579-746 -/
def alterSteps (e : Env) (evs : List Ev) : List (List File) :=
  (evs.filterMap Ev.alter?).flatMap (alterTableSteps e)

/-- /repo/ddl/sqlserver_migration.go:761-767, 784-790 -/
def addFkey (e : Env) (c : Constraint) : Str :=
  b!"ALTER TABLE " ++ tableSql e c.tableSchema c.tableName ++ b!" ADD " ++
  constraintDef .sqlserver e.cur c ++ b!";\n"

/-- ADD FOREIGN KEY: /repo/ddl/sqlserver_migration.go:748-769, 771-792 -/
def addFkeySteps (e : Env) (gs : List (List Constraint)) : List (List File) :=
  gs.map fun g => [(b!"_add_" ++ tablesName e (firstFkey g) ++ b!"_fkeys.tx.sql",
    buffer (g.map (addFkey e)))]

/-- /repo/ddl/sqlserver_migration.go:447-795: the files in the order in which they are returned -/
def sqlSteps (e : Env) (evs : List Ev) (fk : MssqlFkeys) : List (List File) :=
  dropFkeySteps e fk.dropFkeys.groups ++ dropSchemaSteps e evs ++ createSchemaSteps evs ++
  tableSteps e evs ++ alterSteps e evs ++ addFkeySteps e fk.addFastFkeys.groups ++
  addFkeySteps e fk.addFkeys.groups

/-! ## Warnings -/

/-- The warnings about types: /repo/ddl/sqlserver_migration.go:672-674.  Those about identities
(`m.warnings`, 284-291) are the events `Ev.warn`. -/
def typeWarnings (e : Env) (evs : List Ev) : List Warning :=
  (evs.filterMap Ev.alter?).flatMap fun a => a.alterColumns.filterMap fun p =>
    if normType .sqlserver p.1.columnType ≠ normType .sqlserver p.2.columnType then
      some ⟨tableSql e (alterSchema e a.destTable) a.destTable.tableName,
        quoteIdentifier .sqlserver p.2.columnName, .type⟩
    else none

/-- /repo/ddl/sqlserver_migration.go:57-795: the migration of two catalogs, files and warnings;
`none` is a panic (index out of range). -/
def migration (pre : Str) (src dest : Catalog) (dropObjects : Bool) :
    Option (List File × List Warning) :=
  let evs := mssqlEvents src dest dropObjects
  let e : Env := ⟨src.currentSchema, src.defaultCollation⟩
  (mssqlFkeys evs).map fun fk => (numbered pre (sqlSteps e evs fk), typeWarnings e evs)

end Sqddl.Sqlserver
