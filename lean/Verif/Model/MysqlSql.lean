import Verif.Model.MigrationFiles

/-!
# The files of a MySQL migration

`(m *mysqlMigration) sql`: /repo/ddl/mysql_migration.go:270-495.  The fields of `m` are the events of
`mysqlEvents`; buffers that come from the pool are reset before use.
-/

namespace Sqddl.Mysql
open Go Sqddl.Files Sqddl.Render
open Sqddl.Wipe (qualified buffer)

/-- DROP FOREIGN KEY: /repo/ddl/mysql_migration.go:282-287 -/
def dropFkey (cur : Str) (c : Constraint) : Str :=
  b!"ALTER TABLE " ++ (qualified .mysql cur c.tableSchema c.tableName ++ b!" DROP CONSTRAINT " ++
    quoteIdentifier .mysql c.constraintName) ++ b!";\n"

/-- /repo/ddl/mysql_migration.go:274-288: one file for every foreign key -/
def dropFkeySteps (cur : Str) (evs : List Ev) : List (List File) :=
  (evs.filterMap Ev.dropFkey?).map fun c =>
    [(b!"_drop_" ++ noSpaces c.constraintName ++ b!".sql", dropFkey cur c)]

/-- /repo/ddl/mysql_migration.go:291-324 -/
def schemaSteps (evs : List Ev) : List (List File) :=
  let dropped := (evs.filterMap Ev.dropSchema?).map fun s => s.schemaName
  let created := evs.filterMap Ev.createSchema?
  if dropped.isEmpty && created.isEmpty then []
  else
    [(b!"_schemas.sql",
        buffer (dropped.map (dropSchema .mysql) ++ created.map (createSchema .mysql))) ::
      (if created.isEmpty then []
       else [(b!"_schemas.undo.sql", buffer (created.map (dropSchema .mysql)))])]

/-- CREATE TABLE and the indexes of the table: /repo/ddl/mysql_migration.go:355-361 -/
def createTableStmts (cur coll : Str) (t : Table) : List Str :=
  createTable .mysql cur coll t true :: t.indexes.map fun x => createIndex .mysql cur x false

/-- /repo/ddl/mysql_migration.go:327-373 -/
def tableSteps (cur coll : Str) (evs : List Ev) : List (List File) :=
  let dropped := evs.filterMap Ev.dropTable?
  let created := evs.filterMap Ev.createTable?
  if dropped.isEmpty && created.isEmpty then []
  else
    [(b!"_tables.sql",
        buffer (dropped.map (dropTable .mysql cur) ++
          created.flatMap (createTableStmts cur coll))) ::
      (if created.isEmpty then []
       else [(b!"_tables.undo.sql", buffer (created.map (dropTable .mysql cur)))])]

/-- The parts of the ALTER TABLE statement: /repo/ddl/mysql_migration.go:393-472 -/
def alterParts (cur coll : Str) (a : AlterTable) : List Str :=
  a.dropConstraints.map (fun c => b!"DROP CONSTRAINT " ++ quoteIdentifier .mysql c.constraintName) ++
  a.dropIndexes.map (fun x => b!"DROP INDEX " ++ quoteIdentifier .mysql x.indexName) ++
  a.dropColumns.map (fun c => b!"DROP COLUMN " ++ quoteIdentifier .mysql c.columnName) ++
  a.addColumns.map (fun c => b!"ADD COLUMN " ++ columnDef .mysql coll c false) ++
  a.alterColumns.map (fun p => b!"MODIFY COLUMN " ++ columnDef .mysql coll p.2 false) ++
  a.createIndexes.map (fun x => b!"ADD " ++ indexDef .mysql cur x false true) ++
  a.addConstraints.map (fun c => b!"ADD " ++ constraintDef .mysql cur c)

/-- `buf.WriteString("\n    "); if written { buf.WriteString(",") }; written = true`:
/repo/ddl/mysql_migration.go:394-398 and the like -/
def joinParts : List Str → Str
  | [] => []
  | p :: ps => b!"\n    " ++ p ++ ps.flatMap fun q => b!"\n    ," ++ q

/-- /repo/ddl/mysql_migration.go:391-473 -/
def alterTable (cur coll : Str) (a : AlterTable) : Str :=
  b!"ALTER TABLE " ++ qualified .mysql cur a.destTable.tableSchema a.destTable.tableName ++
  joinParts (alterParts cur coll a) ++ b!"\n;\n"

/-- The end of the name of an ALTER TABLE file: /repo/ddl/mysql_migration.go:379-386 -/
def alterName (cur : Str) (t : Table) : Str :=
  b!"_alter_" ++
  (if t.tableSchema ≠ [] ∧ t.tableSchema ≠ cur then noSpaces t.tableSchema ++ b!"_" else []) ++
  noSpaces t.tableName ++ b!".sql"

/-- /repo/ddl/mysql_migration.go:376-474 -/
def alterSteps (cur coll : Str) (evs : List Ev) : List (List File) :=
  (evs.filterMap Ev.alter?).map fun a => [(alterName cur a.destTable, alterTable cur coll a)]

/-- ADD FOREIGN KEY: /repo/ddl/mysql_migration.go:485-491 -/
def addFkey (cur : Str) (c : Constraint) : Str :=
  b!"ALTER TABLE " ++ (qualified .mysql cur c.tableSchema c.tableName ++ b!" ADD ") ++
  constraintDef .mysql cur c ++ b!";\n"

/-- /repo/ddl/mysql_migration.go:477-492 -/
def addFkeySteps (cur : Str) (evs : List Ev) : List (List File) :=
  (evs.filterMap Ev.anyAddFkey?).map fun c =>
    [(b!"_add_" ++ noSpaces c.constraintName ++ b!".sql", addFkey cur c)]

/-- /repo/ddl/mysql_migration.go:270-495: the files in the order in which they are returned -/
def sqlSteps (cur coll : Str) (evs : List Ev) : List (List File) :=
  dropFkeySteps cur evs ++ schemaSteps evs ++ tableSteps cur coll evs ++ alterSteps cur coll evs ++
  addFkeySteps cur evs

/-- The warning about the change of the type of a column: /repo/ddl/mysql_migration.go:430-446 -/
def typeWarning (src dest : Column) : Option Unsafe :=
  let s := normType .mysql src.columnType
  let t := normType .mysql dest.columnType
  if s = t then none
  else if s.1 = b!"VARCHAR" ∧ t.1 = b!"VARCHAR" then
    if atoi0 s.2.1 > 0 ∧ atoi0 t.2.1 > 0 ∧
        ((atoi0 s.2.1 ≤ 255 ∧ atoi0 t.2.1 > 255) ∨ (atoi0 s.2.1 > 255 ∧ atoi0 t.2.1 ≤ 255)) then
      some .limit
    else none
  else some .type

/-- `warnings`: /repo/ddl/mysql_migration.go:425-446 -/
def sqlWarnings (cur : Str) (evs : List Ev) : List Warning :=
  (evs.filterMap Ev.alter?).flatMap fun a => a.alterColumns.filterMap fun p =>
    (typeWarning p.1 p.2).map fun w =>
      ⟨qualified .mysql cur a.destTable.tableSchema a.destTable.tableName, p.2.columnName, w⟩

/-- /repo/ddl/mysql_migration.go:35-495: the migration of two catalogs, files and warnings -/
def migration (pre : Str) (src dest : Catalog) (dropObjects : Bool) : List File × List Warning :=
  let evs := mysqlEvents src dest dropObjects
  (numbered pre (sqlSteps src.currentSchema src.defaultCollation evs),
    sqlWarnings src.currentSchema evs)

end Sqddl.Mysql
