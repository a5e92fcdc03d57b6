import Verif.Model.Render
import Verif.Model.Load
import Verif.Model.DumpCsv

/-!
# `sqddl dump`: the files with the schema

/repo/ddl/dump_cmd.go:315-840.  The functions `dumpSchema`, `dumpIndexes` and `dumpConstraints` write
into a buffer that is empty in the beginning, and the buffer into a file; here they are the text of the
file.  Errors of the file system are not modelled, and schema.json, which `load` does not read, is an
entry with a text that is a parameter.
-/

namespace Sqddl.Dump
open Go
open Sqddl.Render
open Sqddl.Wipe (qualified addStmt buffer)

/-- /repo/ddl/dump_cmd.go:632-637: CREATE EXTENSION -/
def createExtension (d : Dialect) (e : Str) : Str :=
  b!"CREATE EXTENSION IF NOT EXISTS " ++ quoteIdentifier d e ++ b!";\n"

/-- /repo/ddl/dump_cmd.go:652-669: CREATE TYPE.  The schema in the name is the one of the list that the
enum is in (`schema`), not `enum.EnumSchema`. -/
def createEnum (d : Dialect) (cur schema : Str) (e : Enum) : Str :=
  b!"CREATE TYPE " ++ qualified d cur schema e.enumName ++ b!" AS ENUM (" ++
  join b!", " (e.enumLabels.map fun l => b!"'" ++ escapeQuote '\'' l ++ b!"'") ++ b!");\n"

/-- /repo/ddl/dump_cmd.go:690-701: the checks of a domain; a name may be missing -/
def domainChecks (d : Dialect) : List Str → List Str → Str
  | [], _ => []
  | e :: es, ns =>
    opt (decide (ns.headD [] ≠ [])) (b!" CONSTRAINT " ++ quoteIdentifier d (ns.headD [])) ++
    b!" CHECK " ++ wrapBrackets e ++ domainChecks d es ns.tail

/-- /repo/ddl/dump_cmd.go:671-703: CREATE DOMAIN -/
def createDomain (d : Dialect) (cur coll schema : Str) (x : Domain) : Str :=
  b!"CREATE DOMAIN " ++ qualified d cur schema x.domainName ++ b!" AS " ++ x.underlyingType ++
  opt x.isNotNull b!" NOT NULL" ++
  opt (decide (x.collationName ≠ [] ∧ x.collationName ≠ coll))
    (b!" COLLATE \"" ++ escapeQuote '"' x.collationName ++ b!"\"") ++
  opt (decide (x.columnDefault ≠ [])) (b!" DEFAULT " ++ x.columnDefault) ++
  domainChecks d x.checkExprs x.checkNames ++ b!";\n"

/-- /repo/ddl/dump_cmd.go:640-704: a schema, its enums and its domains -/
def schemaStmts (d : Dialect) (cur coll : Str) (s : Schema) : List Str :=
  (if s.schemaName ≠ [] then [createSchema d s.schemaName] else []) ++
  s.enums.map (createEnum d cur s.schemaName) ++
  s.domains.map (createDomain d cur coll s.schemaName)

/-- /repo/ddl/dump_cmd.go:706-719: the tables of a schema -/
def tableStmts (d : Dialect) (cur coll : Str) (s : Schema) : List Str :=
  (s.tables.filter fun t => !(t.isVirtual && t.sql = [])).map fun t => createTable d cur coll t false

/-- /repo/ddl/dump_cmd.go:623-729 `dumpSchema`: the text of schema.sql -/
def dumpSchema (d : Dialect) (c : Catalog) : Str :=
  buffer (c.extensions.map (createExtension d) ++
    c.schemas.flatMap (schemaStmts d c.currentSchema c.defaultCollation) ++
    c.schemas.flatMap (tableStmts d c.currentSchema c.defaultCollation))

/-- /repo/ddl/dump_cmd.go:745-749, 785-789, 815-819: the name of a table in a comment, without
quotes -/
def heading (cur : Str) (t : Table) : Str :=
  b!"-- " ++ (if t.tableSchema ≠ [] ∧ t.tableSchema ≠ cur then t.tableSchema ++ b!"." else []) ++
  t.tableName ++ b!"\n"

/-- /repo/ddl/dump_cmd.go:742-753: the indexes of a table -/
def indexBlock (d : Dialect) (cur : Str) (t : Table) : Str :=
  heading cur t ++ t.indexes.flatMap fun x => createIndex d cur x false

/-- /repo/ddl/dump_cmd.go:731-764 `dumpIndexes`: the text of indexes.sql -/
def dumpIndexes (d : Dialect) (c : Catalog) : Str :=
  buffer (c.schemas.flatMap fun s => s.tables.map (indexBlock d c.currentSchema))

/-- /repo/ddl/dump_cmd.go:798-804, 822-828: ALTER TABLE … ADD -/
def addConstraint (d : Dialect) (cur : Str) (c : Constraint) : Str :=
  b!"ALTER TABLE " ++ qualified d cur c.tableSchema c.tableName ++ b!" ADD " ++
  constraintDef d cur c ++ b!";\n"

/-- /repo/ddl/dump_cmd.go:790-797: the constraints that are not foreign keys and not part of
CREATE TABLE -/
def lateConstraints (d : Dialect) (t : Table) : List Constraint :=
  t.constraints.filter fun c =>
    !(decide (c.constraintType = PRIMARY_KEY ∧ (d = .mysql ∨ d = .sqlserver))) &&
    decide (c.constraintType ≠ FOREIGN_KEY)

/-- /repo/ddl/dump_cmd.go:779-806: PRIMARY KEY, UNIQUE, CHECK, EXCLUDE -/
def constraintBlock (d : Dialect) (cur : Str) (t : Table) : Str :=
  heading cur t ++ (lateConstraints d t).flatMap (addConstraint d cur)

/-- /repo/ddl/dump_cmd.go:807-830: FOREIGN KEY -/
def fkeyBlock (d : Dialect) (cur : Str) (cache : CatalogCache) (t : Table) : Str :=
  heading cur t ++ (cache.getForeignKeys t).flatMap (addConstraint d cur)

/-- /repo/ddl/dump_cmd.go:766-840 `dumpConstraints`: the text of constraints.sql.  Per schema the
constraints of all tables, then the foreign keys. -/
def dumpConstraints (d : Dialect) (c : Catalog) : Str :=
  if d = .sqlite then []
  else buffer (c.schemas.flatMap fun s =>
    s.tables.map (constraintBlock d c.currentSchema) ++
    s.tables.map (fkeyBlock d c.currentSchema (newCatalogCache c)))

/-! ## Queries of the data -/

/-- /repo/ddl/dump_cmd.go:258-286: the query of a table -/
def tableQuery (d : Dialect) (cur : Str) (cache : CatalogCache) (t : Table) : Str :=
  b!"SELECT " ++ join b!", " ((DumpCsv.dumpedColumns t).map fun c => quoteIdentifier d c.columnName) ++
  b!" FROM " ++ qualified d cur t.tableSchema t.tableName ++
  (match (cache.getPrimaryKey t).toOption with
   | some pkey => b!" ORDER BY " ++ join b!", " (pkey.columns.map (quoteIdentifier d))
   | none => [])

/-- /repo/ddl/dump_cmd.go:250-293: `cmd.tableQueries` without subset queries (those are in
`Verif.Model.SubsetQuery`) -/
def tableQueries (d : Dialect) (c : Catalog) : List (Table × Str) :=
  c.schemas.flatMap fun s =>
    (s.tables.filter fun t => !(decide (d = .sqlite) && isVirtualTable t)).map fun t =>
      (t, tableQuery d c.currentSchema (newCatalogCache c) t)

/-! ## Archives and directories -/

/-- The files of a table with their texts: /repo/ddl/dump_cmd.go:374-389, 487-507, 594-614.  `data` is
`cmd.tableQueries` with the text that `dumpCSV` writes for each. -/
def csvEntries (cur : Str) (data : List (Table × Str)) : List Load.Entry :=
  data.map fun (t, text) => { name := DumpCsv.csvFile cur t.tableSchema t.tableName, text }

/-- The entries of a dump, in the order in which `dumpZip` (/repo/ddl/dump_cmd.go:315-400), `dumpTgz`
(402-521) and `dumpDir` (523-621; there the CSV files are written concurrently) write them.  -schema-only
takes precedence over -data-only. -/
def entries (d : Dialect) (c : Catalog) (json : Str) (schemaOnly dataOnly : Bool)
    (data : List (Table × Str)) : List Load.Entry :=
  (if schemaOnly || !dataOnly then
    [{ name := b!"schema.json", text := json },
     { name := b!"schema.sql", text := dumpSchema d c },
     { name := b!"indexes.sql", text := dumpIndexes d c },
     { name := b!"constraints.sql", text := dumpConstraints d c }]
   else []) ++
  (if schemaOnly then [] else csvEntries c.currentSchema data)

end Sqddl.Dump
