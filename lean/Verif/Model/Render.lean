import Verif.Model.Wipe
import Verif.Model.Diff

/-!
# Writing DDL statements

The functions `writeCreateSchema` to `writeConstraintDefinition` of /repo/ddl/dump_cmd.go:1003-1354.
Each of them appends to a buffer; here it is the text that is appended.
-/

namespace Sqddl.Render
open Go
open Sqddl.Wipe (qualified buffer)

/-- `if b { buf.WriteString(s) }`, all over /repo/ddl/dump_cmd.go:1111-1354 -/
def opt (b : Bool) (s : Str) : Str := if b then s else []

/-- /repo/ddl/dump_cmd.go:1003-1014 `writeCreateSchema`; nothing is written for other dialects. -/
def createSchema (d : Dialect) (name : Str) : Str :=
  match d with
  | .postgres | .mysql => b!"CREATE SCHEMA IF NOT EXISTS " ++ quoteIdentifier d name ++ b!";\n"
  | .sqlserver =>
    b!"IF SCHEMA_ID('" ++ escapeQuote '\'' name ++ b!"') IS NULL EXEC('CREATE SCHEMA " ++
    escapeQuote '\'' (quoteIdentifier d name) ++ b!"');\n"
  | _ => []

/-- /repo/ddl/dump_cmd.go:1263-1270 `writeColumnNames` -/
def columnNames (d : Dialect) (cols : List Str) : Str :=
  join b!", " (cols.map (quoteIdentifier d))

/-- `if rule != "" && rule != NO_ACTION`: /repo/ddl/dump_cmd.go:1318-1323 and 1247-1252 -/
def rule (kw r : Str) : Str := opt (decide (r ≠ [] ∧ r ≠ NO_ACTION)) (kw ++ r)

/-- /repo/ddl/dump_cmd.go:1300-1314: the table that a foreign key references.  MySQL takes an
unqualified table from the schema of the table that is altered, so a reference to another schema
is qualified even if that schema is the current one. -/
def referencesTable (d : Dialect) (cur : Str) (c : Constraint) : Str :=
  if c.referencesSchema ≠ [] ∧ c.referencesSchema ≠ cur then
    quoteIdentifier d c.referencesSchema ++ b!"." ++ quoteIdentifier d c.referencesTable
  else if d = .mysql ∧ c.tableSchema ≠ c.referencesSchema then
    quoteIdentifier d (if c.referencesSchema = [] then cur else c.referencesSchema) ++ b!"." ++
    quoteIdentifier d c.referencesTable
  else quoteIdentifier d c.referencesTable

/-- /repo/ddl/dump_cmd.go:1299-1324 -/
def references (d : Dialect) (cur : Str) (c : Constraint) : Str :=
  b!" REFERENCES " ++ (referencesTable d cur c ++ b!" (") ++ columnNames d c.referencesColumns ++
  b!")" ++ rule b!" ON UPDATE " c.updateRule ++ rule b!" ON DELETE " c.deleteRule

/-- /repo/ddl/dump_cmd.go:1332-1340: the columns of an EXCLUDE constraint -/
def exclusionColumns : List Str → List Str → List Str
  | [], _ => []
  | c :: cs, ops => (c ++ b!" WITH " ++ ops.headD []) :: exclusionColumns cs ops.tail

/-- /repo/ddl/dump_cmd.go:1326-1345 -/
def exclusion (c : Constraint) : Str :=
  opt (decide (c.exclusionIndexType ≠ [])) (b!" USING " ++ c.exclusionIndexType) ++ b!" (" ++
  join b!", " (exclusionColumns c.columns c.exclusionOperators) ++ b!")" ++
  opt (decide (c.exclusionPredicate ≠ [])) (b!" WHERE (" ++ c.exclusionPredicate ++ b!")")

/-- /repo/ddl/dump_cmd.go:1347-1353 and 1253-1258 -/
def deferrable (d : Dialect) (isDeferrable isInitiallyDeferred : Bool) : Str :=
  opt (isDeferrable && (d = .sqlite ∨ d = .postgres))
    (b!" DEFERRABLE" ++ opt isInitiallyDeferred b!" INITIALLY DEFERRED")

/-- `CONSTRAINT name `: /repo/ddl/dump_cmd.go:1281-1283 -/
def constraintName (d : Dialect) (c : Constraint) : Str :=
  opt (decide (c.constraintName ≠ []))
    (b!"CONSTRAINT " ++ quoteIdentifier d c.constraintName ++ b!" ")

/-- /repo/ddl/dump_cmd.go:1272-1354 `writeConstraintDefinition` -/
def constraintDef (d : Dialect) (cur : Str) (c : Constraint) : Str :=
  if c.constraintType = PRIMARY_KEY ∧ d = .mysql then
    b!"PRIMARY KEY (" ++ columnNames d c.columns ++ b!")"
  else if c.constraintType = CHECK then
    constraintName d c ++ c.constraintType ++ b!" (" ++ c.checkExpr ++ b!")"
  else
    constraintName d c ++ c.constraintType ++
    opt (decide (c.constraintType ≠ EXCLUDE)) (b!" (" ++ columnNames d c.columns ++ b!")") ++
    opt (decide (c.constraintType = FOREIGN_KEY)) (references d cur c) ++
    opt (decide (c.constraintType = EXCLUDE ∧ d = .postgres)) (exclusion c) ++
    deferrable d c.isDeferrable c.isInitiallyDeferred

/-- /repo/ddl/dump_cmd.go:1171-1181: the type of a column.  A SQL Server generated column has
none. -/
def columnType (d : Dialect) (c : Column) : Str :=
  if c.domainName ≠ [] then b!" " ++ c.domainName
  else if c.isEnum then b!" " ++ c.columnType
  else opt (c.columnType ≠ [] && !(d = .sqlserver && c.generatedExpr ≠ []))
    (b!" " ++ toUpper c.columnType)

/-- /repo/ddl/dump_cmd.go:1186-1194 -/
def autoincrement (d : Dialect) (c : Column) : Str :=
  match d with
  | .sqlite => opt c.isAutoincrement b!" AUTOINCREMENT"
  | .mysql => opt c.isAutoincrement b!" AUTO_INCREMENT"
  | _ => []

/-- /repo/ddl/dump_cmd.go:1215-1222 -/
def collation (d : Dialect) (defaultCollation : Str) (c : Column) : Str :=
  opt (decide (c.collationName ≠ [] ∧ c.collationName ≠ defaultCollation))
    (if d = .postgres then b!" COLLATE \"" ++ escapeQuote '"' c.collationName ++ b!"\""
     else b!" COLLATE " ++ c.collationName)

/-- /repo/ddl/dump_cmd.go:1223-1240 -/
def generated (d : Dialect) (c : Column) : Str :=
  opt (decide (c.generatedExpr ≠ []))
    (match d with
     | .sqlite | .postgres =>
       b!" GENERATED ALWAYS AS " ++ wrapBrackets c.generatedExpr ++ b!" STORED"
     | .mysql => b!" AS " ++ wrapBrackets c.generatedExpr ++ opt c.generatedExprStored b!" STORED"
     | .sqlserver =>
       b!" AS " ++ wrapBrackets c.generatedExpr ++ opt c.generatedExprStored b!" PERSISTED"
     | _ => [])

/-- /repo/ddl/dump_cmd.go:1241-1260 -/
def columnReferences (d : Dialect) (c : Column) : Str :=
  opt (decide (c.referencesTable ≠ [] ∧ c.referencesColumn ≠ []))
    (b!" REFERENCES " ++
     opt (decide (c.referencesSchema ≠ [] ∧ c.referencesSchema ≠ c.tableSchema))
       (quoteIdentifier d c.referencesSchema ++ b!".") ++
     quoteIdentifier d c.referencesTable ++ b!" (" ++
     quoteIdentifier d c.referencesColumn ++ b!")" ++
     rule b!" ON UPDATE " c.updateRule ++ rule b!" ON DELETE " c.deleteRule ++
     deferrable d c.isDeferrable c.isInitiallyDeferred)

/-- /repo/ddl/dump_cmd.go:1173-1260: what `writeColumnDefinition` writes after the name of the
column. -/
def columnBody (d : Dialect) (defaultCollation : Str) (c : Column) (columnLevel : Bool) : Str :=
  columnType d c ++
  opt (c.isPrimaryKey && (columnLevel || d = .sqlite)) b!" PRIMARY KEY" ++
  autoincrement d c ++
  opt (c.isNotNull && !(d = .sqlserver && c.generatedExpr ≠ [])) b!" NOT NULL" ++
  opt (c.isUnique && columnLevel) b!" UNIQUE" ++
  opt (c.columnIdentity ≠ [] && (d = .postgres || d = .sqlserver)) (b!" " ++ c.columnIdentity) ++
  opt (decide (c.columnDefault ≠ [])) (b!" DEFAULT " ++ c.columnDefault) ++
  opt (c.onUpdateCurrentTimestamp && d = .mysql) b!" ON UPDATE CURRENT_TIMESTAMP" ++
  collation d defaultCollation c ++
  generated d c ++
  opt columnLevel (columnReferences d c)

/-- /repo/ddl/dump_cmd.go:1170-1261 `writeColumnDefinition` -/
def columnDef (d : Dialect) (defaultCollation : Str) (c : Column) (columnLevel : Bool) : Str :=
  quoteIdentifier d c.columnName ++ columnBody d defaultCollation c columnLevel

/-- `isFulltextOrSpatialIndex`: /repo/ddl/dump_cmd.go:1112-1117; it looks for SPATIAL in the name of
the index, not in its type.  `strings.EqualFold` is a comparison of upper case ASCII. -/
def fulltextOrSpatial (d : Dialect) (x : Index) : Bool :=
  d = .mysql ∧ (toUpper x.indexType = b!"FULLTEXT" ∨ toUpper x.indexName = b!"SPATIAL")

/-- /repo/ddl/dump_cmd.go:1146-1158: the columns of an index with their directions -/
def indexColumns (d : Dialect) : List Str → List Bool → List Str
  | [], _ => []
  | c :: cs, ds =>
    ((if wrappedInBrackets c then c else quoteIdentifier d c) ++ opt (ds.headD false) b!" DESC") ::
    indexColumns d cs ds.tail

/-- /repo/ddl/dump_cmd.go:1111-1168 `writeIndexDefinition` -/
def indexDef (d : Dialect) (cur : Str) (x : Index) (concurrently inline : Bool) : Str :=
  (if x.isUnique then b!"UNIQUE " else opt (fulltextOrSpatial d x) (x.indexType ++ b!" ")) ++
  b!"INDEX " ++ opt (concurrently && d = .postgres) b!"CONCURRENTLY " ++
  quoteIdentifier d x.indexName ++
  opt (x.indexType ≠ [] && d = .mysql && toUpper x.indexType ≠ b!"BTREE" &&
      !fulltextOrSpatial d x)
    (opt (!inline) b!" USING" ++ b!" " ++ x.indexType) ++
  opt (!inline) (b!" ON " ++ qualified d cur x.tableSchema x.tableName) ++
  opt (x.indexType ≠ [] && d = .postgres && toUpper x.indexType ≠ b!"BTREE")
    (b!" USING " ++ x.indexType) ++
  b!" (" ++ join b!", " (indexColumns d x.columns x.descending) ++ b!")" ++
  opt (!x.includeColumns.isEmpty && (d = .postgres || d = .sqlserver))
    (b!" INCLUDE (" ++ columnNames d x.includeColumns ++ b!")") ++
  opt (x.predicate ≠ [] && (d = .sqlite || d = .postgres || d = .sqlserver))
    (b!" WHERE " ++ x.predicate)

/-- `strings.Replace(s, old, new, 1)` in /repo/ddl/dump_cmd.go:1100; `old` is not empty. -/
def replaceFirst (old new : Str) : Str → Str
  | [] => []
  | c :: r =>
    if hasPrefix (c :: r) old then new ++ (c :: r).drop old.length
    else c :: replaceFirst old new r

/-- /repo/ddl/dump_cmd.go:1095-1109 `writeCreateIndex` -/
def createIndex (d : Dialect) (cur : Str) (x : Index) (concurrently : Bool) : Str :=
  if x.sql ≠ [] then
    (if concurrently && d = .postgres then
      replaceFirst (b!"CREATE INDEX " ++ quoteIdentifier d x.indexName)
        (b!"CREATE INDEX CONCURRENTLY " ++ quoteIdentifier d x.indexName) x.sql
     else x.sql) ++ b!"\n"
  else b!"CREATE " ++ indexDef d cur x concurrently false ++ b!";\n"

/-- /repo/ddl/dump_cmd.go:1026-1039: the columns that a CREATE TABLE lists -/
def listedColumns (t : Table) : List Column :=
  t.columns.filter fun c => !(c.ignore || (c.isGenerated && c.generatedExpr = []))

/-- /repo/ddl/dump_cmd.go:1040-1092: the constraints that a CREATE TABLE lists.  SQLite cannot add
constraints later, so all are listed there, but a primary key of one column is part of the column;
without `includeConstraints` MySQL and SQL Server list the first primary key. -/
def listedConstraints (d : Dialect) (t : Table) (includeConstraints : Bool) : List Constraint :=
  if d = .sqlite then
    t.constraints.filter fun c =>
      !c.ignore && !(c.constraintType = PRIMARY_KEY ∧ c.columns.length = 1)
  else if includeConstraints then
    t.constraints.filter fun c => !c.ignore && c.constraintType ≠ FOREIGN_KEY
  else if d = .mysql ∨ d = .sqlserver then
    (t.constraints.find? fun c => c.constraintType = PRIMARY_KEY && !c.ignore).toList
  else []

/-- /repo/ddl/dump_cmd.go:1030-1038, 1050-1056, 1075-1091: the items between the brackets, each with
what precedes it: a comma for all but the first column, an empty line before the first
constraint. -/
def tableItems (columns constraints : List Str) : Str :=
  (match columns with
   | [] => []
   | c :: cs => b!"\n    " ++ c ++ cs.flatMap fun x => b!"\n    ," ++ x) ++
  (match constraints with
   | [] => []
   | c :: cs => b!"\n\n    ," ++ c ++ cs.flatMap fun x => b!"\n    ," ++ x)

/-- /repo/ddl/dump_cmd.go:1016-1093 `writeCreateTable` -/
def createTable (d : Dialect) (cur defaultCollation : Str) (t : Table)
    (includeConstraints : Bool) : Str :=
  if t.sql ≠ [] then t.sql ++ b!"\n"
  else
    b!"CREATE TABLE " ++ (qualified d cur t.tableSchema t.tableName ++ b!" (") ++
    tableItems ((listedColumns t).map fun c => columnDef d defaultCollation c false)
      ((listedConstraints d t includeConstraints).map (constraintDef d cur)) ++
    b!"\n);\n"

end Sqddl.Render
