import Verif.Model.StructParser
import Verif.Props.Modifier
import Verif.Spec.Catalog

/-!
# What structs can say about a database

The databases that can be described by structs completely, and what it means that a catalog read from
structs describes the same tables.
-/

namespace StructSpec
open Sqddl Go CatalogSpec

/-- Letters, digits, underscores and spaces; the first character is not a digit.  With spaces
replaced by underscores these are identifiers of Go. -/
def GoName (s : Str) : Prop :=
  s ≠ [] ∧ s ≠ b!"_" ∧ s ≠ b!" " ∧ (∀ c ∈ s.head?, isDigit c = false) ∧
  ∀ c ∈ s, c = ' ' ∨ c = '_' ∨ isDigit c = true ∨ ('a' ≤ c ∧ c ≤ 'z') ∨ ('A' ≤ c ∧ c ≤ 'Z')

/-- Text that can be written as the value of a modifier in the tag of a struct. -/
def TagValue (s : Str) : Prop := ModifierSpec.PlainValue s ∧ '`' ∉ s

/-- Primary keys, unique constraints and foreign keys. -/
def isKeyOrRef (k : Constraint) : Bool :=
  k.constraintType == PRIMARY_KEY || k.constraintType == UNIQUE || k.constraintType == FOREIGN_KEY

/-- The constraints that structs can describe. -/
def keysOf (t : Table) : List Constraint := t.constraints.filter isKeyOrRef

/-- The name given to an object on columns of a table: the names joined by underscores, cut off so
that the name has at most 63 bytes, and a suffix for the kind of object. -/
def nameFor (suffix table : Str) (columns : List Str) : Str :=
  let text := table ++ columns.flatMap fun c => '_' :: c
  ((text.map fun c => if c = ' ' then '_' else c).take (63 - suffix.length)) ++ suffix

/-- The suffixes for the kinds of constraints. -/
def suffixOf (type : Str) : Str :=
  if type = PRIMARY_KEY then b!"_pkey" else if type = UNIQUE then b!"_key" else b!"_fkey"

/-- An empty name of a schema stands for the current schema. -/
def resolve (cur s : Str) : Str := if s = [] then cur else s

/-- A referential action; the empty string stands for NO ACTION. -/
def sameRule (a b : Str) : Prop :=
  (if a = [] then NO_ACTION else a) = (if b = [] then NO_ACTION else b)

/-- The type of a column, as structs can describe it. -/
structure TypeFits (d : Dialect) (c : Column) : Prop where
  noDomain : c.domainName = []
  tag : TagValue c.columnType
  /-- only Postgres has columns with an enum type -/
  isEnum : c.isEnum = true → d = .postgres ∧ c.columnType ≠ []
  /-- normalizeColumnType does not panic -/
  normal : (normalizeColumnType d c.columnType).isSome
  /-- the default type of times is a different one in the two directions -/
  notTimestamp : c.columnType = b!"TIMESTAMP" → d = .postgres ∨ d = .sqlserver
  /-- types with a length have a length -/
  length : ∀ r, normalizeColumnType d c.columnType = some r →
    r.1 ∈ [b!"VARBINARY", b!"BINARY", b!"NVARCHAR", b!"VARCHAR", b!"CHAR"] → r.2.1 ≠ []
  autoincrement : c.isAutoincrement = true → d = .mysql ∨ (d = .sqlite ∧ c.columnType = b!"INTEGER")

/-- The default of a column, as structs can describe it: for Postgres an expression without brackets
around it; for other databases a literal, or an expression in brackets. -/
def DefaultFits (isFloat : Str → Bool) (d : Dialect) (s : Str) : Prop :=
  s = [] ∨
  (d = .postgres ∧ TagValue s ∧ ¬ (s.head? = some '(' ∧ s.getLast? = some ')')) ∨
  (d ≠ .postgres ∧ TagValue s ∧ Postgres.isLiteral isFloat s = true ∧
    ¬ (s.head? = some '(' ∧ s.getLast? = some ')') ∧
    (d = .sqlserver → toUpper s ∉ [b!"TRUE", b!"FALSE"])) ∨
  (d ≠ .postgres ∧ ∃ e, s = '(' :: e ++ [')'] ∧ e ≠ [] ∧ TagValue e ∧
    Postgres.isLiteral isFloat e = false ∧ ¬ (e.head? = some '(' ∧ e.getLast? = some ')'))

/-- A column that structs can describe.  (A generated column is described as such, without its
expression.) -/
structure ColumnFits (isFloat : Str → Bool) (d : Dialect) (c : Column) : Prop where
  live : c.ignore = false
  name : GoName c.columnName
  type : TypeFits d c
  default : DefaultFits isFloat d c.columnDefault
  identity : c.columnIdentity = [] ∨
    (d = .postgres ∧ c.columnIdentity ∈
      [b!"GENERATED BY DEFAULT AS IDENTITY", b!"GENERATED ALWAYS AS IDENTITY"]) ∨
    (d = .sqlserver ∧ c.columnIdentity = b!"IDENTITY")
  onUpdate : c.onUpdateCurrentTimestamp = true → d = .mysql
  collation : TagValue c.collationName

/-- A foreign key that structs can describe: it refers to columns of a table of the catalog, and if
the table is in another schema the columns are called differently. -/
structure RefFits (d : Dialect) (cat : Catalog) (k : Constraint) : Prop where
  target : ∃ s ∈ cat.schemas, s.schemaName = resolve cat.currentSchema k.referencesSchema ∧
    ∃ t ∈ s.tables, t.tableName = k.referencesTable ∧
      ∀ n ∈ k.referencesColumns, n ∈ t.columns.map (·.columnName)
  length : k.referencesColumns.length = k.columns.length
  distinct : resolve cat.currentSchema k.referencesSchema ≠ cat.currentSchema →
    k.columns ≠ k.referencesColumns
  update : k.updateRule ∈ [[], b!"NO ACTION", b!"RESTRICT", b!"CASCADE", b!"SET NULL", b!"SET DEFAULT"]
  delete : k.deleteRule ∈ [[], b!"NO ACTION", b!"RESTRICT", b!"CASCADE", b!"SET NULL", b!"SET DEFAULT"]
  noRestrict : d = .sqlserver → k.updateRule ≠ b!"RESTRICT" ∧ k.deleteRule ≠ b!"RESTRICT"

/-- A key or foreign key that structs can describe. -/
structure KeyFits (d : Dialect) (cat : Catalog) (t : Table) (k : Constraint) : Prop where
  columns : k.columns ≠ [] ∧ ∀ n ∈ k.columns, n ∈ t.columns.map (·.columnName)
  name : k.constraintName =
    if d = .mysql ∧ k.constraintType = PRIMARY_KEY then b!"PRIMARY"
    else nameFor (suffixOf k.constraintType) t.tableName k.columns
  deferrable : k.isDeferrable = true → d = .sqlite ∨ d = .postgres
  initially : k.isInitiallyDeferred = true → k.isDeferrable = true
  ref : k.constraintType = FOREIGN_KEY → RefFits d cat k
  /-- only foreign keys refer to columns -/
  noRef : k.constraintType ≠ FOREIGN_KEY → k.referencesSchema = [] ∧ k.referencesTable = [] ∧
    k.referencesColumns = [] ∧ k.updateRule = [] ∧ k.deleteRule = []

/-- An index that structs can describe. -/
structure IndexFits (d : Dialect) (t : Table) (x : Index) : Prop where
  live : x.ignore = false
  columns : x.columns ≠ [] ∧ ∀ n ∈ x.columns, n ∈ t.columns.map (·.columnName)
  name : x.indexName = nameFor b!"_idx" t.tableName x.columns
  /-- no included columns, no condition, no descending columns, no operator classes, no expressions -/
  simple : Structs.isSimpleIndex x = true
  type : x.indexType ≠ [] → toUpper x.indexType ≠ b!"BTREE" →
    TagValue x.indexType ∧ (d = .postgres ∨ d = .mysql)

/-- A table that structs can describe completely. -/
structure TableFits (isFloat : Str → Bool) (d : Dialect) (cat : Catalog) (t : Table) : Prop where
  live : t.ignore = false
  notVirtual : d = .sqlite → t.isVirtual = false ∧ hasPrefix t.sql b!"CREATE VIRTUAL TABLE" = false
  name : GoName t.tableName
  schema : if t.tableSchema = [] then cat.currentSchema = []
    else ∀ c ∈ t.tableSchema, c ∉ ['.', '`', '{', '}']
  hasColumn : t.columns ≠ []
  columns : ∀ c ∈ t.columns, ColumnFits isFloat d c
  constraintsLive : ∀ k ∈ t.constraints, k.ignore = false
  keys : ∀ k ∈ keysOf t, KeyFits d cat t k
  indexes : ∀ x ∈ t.indexes, IndexFits d t x
  onePkey : ∀ k ∈ t.constraints, ∀ l ∈ t.constraints, k.constraintType = PRIMARY_KEY →
    l.constraintType = PRIMARY_KEY → k = l
  /-- the columns of a primary key are NOT NULL; the exception is the row number of SQLite -/
  pkeyNotNull : ∀ k ∈ t.constraints, k.constraintType = PRIMARY_KEY → ∀ c ∈ t.columns,
    c.columnName ∈ k.columns →
    c.isNotNull = true ∨ (d = .sqlite ∧ k.columns.length = 1 ∧ c.columnType = b!"INTEGER")
  /-- SQLite: `INT` as the type of a primary key is not kept, nor is the case of `INTEGER` -/
  pkeyType : d = .sqlite → ∀ k ∈ t.constraints, k.constraintType = PRIMARY_KEY → ∀ c ∈ t.columns,
    k.columns = [c.columnName] →
    c.columnType ≠ b!"INT" ∧ (toUpper c.columnType = b!"INTEGER" → c.columnType = b!"INTEGER")

/-- A database that structs can describe completely. -/
structure Fits (isFloat : Str → Bool) (cat : Catalog) : Prop where
  ok : Ok cat
  live : ∀ s ∈ cat.schemas, s.ignore = false
  tables : ∀ s ∈ cat.schemas, ∀ t ∈ s.tables,
    TableFits isFloat (Structs.dialectOf cat.dialect) cat t

/-! ## The same tables -/

/-- The same column: the collation is not mentioned if it is the default one. -/
structure SameColumn (defaultCollation : Str) (c c' : Column) : Prop where
  live : c'.ignore = false
  name : c'.columnName = c.columnName
  type : c'.columnType = c.columnType
  notNull : c'.isNotNull = c.isNotNull
  autoincrement : c'.isAutoincrement = c.isAutoincrement
  identity : c'.columnIdentity = c.columnIdentity
  default : c'.columnDefault = c.columnDefault
  onUpdate : c'.onUpdateCurrentTimestamp = c.onUpdateCurrentTimestamp
  collation : c'.collationName = if c.collationName = defaultCollation then [] else c.collationName
  generated : c'.isGenerated = true ↔ c.isGenerated = true ∨ c.generatedExpr ≠ []

/-- The same key or foreign key. -/
structure SameKey (cur : Str) (k k' : Constraint) : Prop where
  live : k'.ignore = false
  name : k'.constraintName = k.constraintName
  type : k'.constraintType = k.constraintType
  columns : k'.columns = k.columns
  refTable : k'.referencesTable = k.referencesTable
  refColumns : k'.referencesColumns = k.referencesColumns
  refSchema : resolve cur k'.referencesSchema = resolve cur k.referencesSchema
  update : sameRule k'.updateRule k.updateRule
  delete : sameRule k'.deleteRule k.deleteRule
  deferrable : k'.isDeferrable = k.isDeferrable
  initially : k'.isInitiallyDeferred = k.isInitiallyDeferred

/-- The same index; BTREE is the type of index that is meant if none is given. -/
structure SameIndex (x x' : Index) : Prop where
  live : x'.ignore = false
  name : x'.indexName = x.indexName
  columns : x'.columns = x.columns
  unique : x'.isUnique = x.isUnique
  type : x'.indexType = if toUpper x.indexType = b!"BTREE" then [] else x.indexType

/-- The same table: columns in the same order, and the same keys, foreign keys and indexes. -/
structure SameTable (cur defaultCollation : Str) (t t' : Table) : Prop where
  live : t'.ignore = false
  schema : t'.tableSchema = t.tableSchema
  name : t'.tableName = t.tableName
  columnCount : t'.columns.length = t.columns.length
  columns : ∀ p ∈ t.columns.zip t'.columns, SameColumn defaultCollation p.1 p.2
  keys : ∀ k ∈ keysOf t, ∃ k' ∈ t'.constraints, SameKey cur k k'
  noOtherKeys : ∀ k' ∈ t'.constraints, ∃ k ∈ keysOf t, SameKey cur k k'
  indexes : ∀ x ∈ t.indexes, ∃ x' ∈ t'.indexes, SameIndex x x'
  noOtherIndexes : ∀ x' ∈ t'.indexes, ∃ x ∈ t.indexes, SameIndex x x'
  /-- the keys say which table they belong to -/
  owner : ∀ k' ∈ t'.constraints, k'.tableSchema = t.tableSchema ∧ k'.tableName = t.tableName
  /-- an ordinary table, without SQL of its own -/
  ordinary : t'.isVirtual = false ∧ t'.sql = []

/-- The tables of a catalog. -/
def tablesOf (cat : Catalog) : List Table := cat.schemas.flatMap (·.tables)

/-- The same tables, in the same order. -/
structure SameTables (cat cat' : Catalog) : Prop where
  ok : Ok cat'
  live : ∀ s ∈ cat'.schemas, s.ignore = false
  schemas : cat'.schemas.map (·.schemaName) =
    (cat.schemas.filter fun s => !s.tables.isEmpty).map (·.schemaName)
  count : (tablesOf cat').length = (tablesOf cat).length
  tables : ∀ p ∈ (tablesOf cat).zip (tablesOf cat'),
    SameTable cat.currentSchema cat.defaultCollation p.1 p.2

end StructSpec
