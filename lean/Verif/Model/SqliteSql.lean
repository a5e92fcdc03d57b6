import Verif.Model.MigrationFiles
import Verif.Model.Diff

/-!
# The file of a SQLite migration

/repo/ddl/sqlite_migration.go:247-453.  The whole migration is one file.  SQLite cannot change a
column or a constraint of a table; such a table is rebuilt: a table with another name is created, the
rows are copied, the table is dropped and the new one renamed.
-/

namespace Sqddl.Sqlite
open Go Sqddl.Render Sqddl.Files
open Sqddl.Wipe (buffer)

/-- /repo/ddl/sqlite_migration.go:267-276 and 277-286: the loop over the constraints that are dropped
(added); `cols` are the columns that are dropped (added).  The table has to be rebuilt for any
constraint but a foreign key of one such column.  `none`: `constraint.Columns[0]` panics. -/
def copyFor (cols : List Str) (cs : List Constraint) : Option Bool :=
  if cs.any fun c => c.constraintType = FOREIGN_KEY && c.columns.isEmpty then none
  else some (cs.any fun c =>
    !(c.constraintType = FOREIGN_KEY && c.columns.length ≤ 1) || !cols.contains (c.columns.headD []))

/-- /repo/ddl/sqlite_migration.go:262-287: whether a table is rebuilt; `none` is a panic -/
def copies (a : AlterTable) : Option Bool :=
  if a.alterColumns ≠ [] then some true
  else
    (copyFor (a.dropColumns.map (·.columnName)) a.dropConstraints).bind fun x =>
    (copyFor (a.addColumns.map (·.columnName)) a.addConstraints).map fun y => x || y

/-- /repo/ddl/sqlite_migration.go:293, 368 -/
def pragma (on : Bool) : Str :=
  b!"PRAGMA legacy_alter_table = " ++ (if on then b!"ON" else b!"OFF") ++ b!";\n"

/-- /repo/ddl/sqlite_migration.go:302, 424 -/
def dropTable (n : Str) : Str := b!"DROP TABLE " ++ quoteIdentifier .sqlite n ++ b!";\n"

/-- /repo/ddl/sqlite_migration.go:310-316 -/
def createTableStmts (t : Table) : List Str :=
  createTable .sqlite [] [] t true :: t.indexes.map fun x => createIndex .sqlite [] x false

/-- /repo/ddl/sqlite_migration.go:387-389: the table that replaces the old one -/
def tableNew (t : Table) : Table :=
  { t with
    tableName := t.tableName ++ b!"_new"
    sql := replaceFirst (b!"CREATE TABLE " ++ quoteIdentifier .sqlite t.tableName)
      (b!"CREATE TABLE " ++ quoteIdentifier .sqlite (t.tableName ++ b!"_new")) t.sql }

/-- /repo/ddl/sqlite_migration.go:393-406: the columns that are copied -/
def insertColumns (src dest : Table) : List Str :=
  (src.columns.map (·.columnName)).filter fun n =>
    (dest.columns.filter fun c => !(c.isGenerated || c.generatedExpr ≠ [])).any fun c =>
      c.columnName == n

/-- /repo/ddl/sqlite_migration.go:407-421: copying the rows -/
def insertSelect (src dest : Table) : Str :=
  b!"INSERT INTO " ++ quoteIdentifier .sqlite (dest.tableName ++ b!"_new") ++ b!"\n    (" ++
  columnNames .sqlite (insertColumns src dest) ++ b!")\nSELECT\n    " ++
  columnNames .sqlite (insertColumns src dest) ++ b!"\nFROM\n    " ++
  quoteIdentifier .sqlite dest.tableName ++ b!"\n;\n"

/-- /repo/ddl/sqlite_migration.go:427 -/
def rename (n : Str) : Str :=
  b!"ALTER TABLE " ++ quoteIdentifier .sqlite (n ++ b!"_new") ++ b!" RENAME TO " ++
  quoteIdentifier .sqlite n ++ b!";\n"

/-- /repo/ddl/sqlite_migration.go:438-452: the triggers that are created again -/
def triggerTexts (src dest : Table) : List Str :=
  (if dest.triggers = [] then src.triggers else dest.triggers).map fun g => g.sql ++ b!"\n"

/-- /repo/ddl/sqlite_migration.go:377-453 `copyTable`: the first four statements follow each other
without an empty line, before each of the others there is one. -/
def copyTable (src dest : Table) : List Str :=
  (createTable .sqlite [] [] (tableNew dest) true ++ insertSelect src dest ++
    dropTable dest.tableName ++ rename dest.tableName) ::
  (dest.indexes.map (fun x => createIndex .sqlite [] x false) ++ triggerTexts src dest)

/-- /repo/ddl/sqlite_migration.go:329-361: a table that is not rebuilt -/
def alterStmts (a : AlterTable) : List Str :=
  let n := quoteIdentifier .sqlite a.destTable.tableName
  a.dropIndexes.map (fun x => b!"DROP INDEX " ++ quoteIdentifier .sqlite x.indexName ++ b!";\n") ++
  a.dropColumns.map (fun c =>
    b!"ALTER TABLE " ++ n ++ b!" DROP COLUMN " ++ quoteIdentifier .sqlite c.columnName ++ b!";\n") ++
  a.addColumns.map (fun c =>
    b!"ALTER TABLE " ++ n ++ b!" ADD COLUMN " ++ columnDef .sqlite [] c true ++ b!";\n") ++
  a.createIndexes.map fun x => createIndex .sqlite [] x false

/-- /repo/ddl/sqlite_migration.go:320-362 -/
def alterText (a : AlterTable) : List Str :=
  if copies a = some true then copyTable a.srcTable a.destTable else alterStmts a

/-- /repo/ddl/sqlite_migration.go:261, 289: whether any table is rebuilt; `none` is a panic -/
def hasCopy (as : List AlterTable) : Option Bool := (as.mapM copies).map (·.any id)

/-- /repo/ddl/sqlite_migration.go:289-369: the statements, each preceded by an empty line unless it
is the first -/
def sqlStmts (copy : Bool) (evs : List Ev) : List Str :=
  (if copy then [pragma true] else []) ++
  (evs.filterMap Ev.dropTable?).map (fun t => dropTable t.tableName) ++
  (evs.filterMap Ev.createTable?).flatMap createTableStmts ++
  (evs.filterMap Ev.alter?).flatMap alterText ++
  (if copy then [pragma false] else [])

/-- /repo/ddl/sqlite_migration.go:247-375: the content of the file; `none` is a panic -/
def sqlText (evs : List Ev) : Option Str :=
  (hasCopy (evs.filterMap Ev.alter?)).map fun copy => buffer (sqlStmts copy evs)

/-- /repo/ddl/sqlite_migration.go:28-375: the migration of two catalogs; there is no file if nothing
is to be done -/
def migration (pre : Str) (src dest : Catalog) (dropObjects : Bool) : Option (List File) :=
  (sqlText (sqliteEvents src dest dropObjects)).map fun s =>
    if s = [] then [] else [(pre ++ b!".sql", s)]

end Sqddl.Sqlite
