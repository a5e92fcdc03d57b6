import Verif.Spec.MsConverge
import Verif.Spec.MsExpress

/-!
# What a dump stands for

The database that a catalog describes, where an index may be given by its definition in SQL, and what
has to hold for the files of a dump to be accepted by an empty database.  Only the record types of the
catalog are taken from the model.
-/

namespace DumpSpec
open SqlSpec Sqddl DdlText EngineSpec CatalogSpec

/-- The index that an index of a catalog stands for.  If it comes with its definition in SQL, this has to
be one CREATE INDEX that ends in a semicolon.  `kw` are the reserved words. -/
def indexMeans (d : Dialect) (kw : List Str) (cur : Str) (x : Index) : Option Idx :=
  if x.sql = [] then some ((idxOf d cur false false x).resolve cur)
  else (lex d x.sql).bind fun ts =>
    if ts.getLast? = some (.punct ';') ∧ Tok.punct ';' ∉ ts.dropLast then
      match readStmt d kw ts.dropLast with
      | some (.createIndex y) => some (y.resolve cur)
      | _ => none
    else none

/-- The table that a catalog table describes. -/
def tblOf (d : Dialect) (kw : List Str) (cur coll : Str) (t : Table) : Tbl where
  col n := (t.columns.find? fun c => c.columnName == n).map (colOf d coll false)
  con n := (t.constraints.find? fun c => c.constraintName == n).map (conOf d cur)
  idx n := (t.indexes.find? fun x => x.indexName == n).bind fun x => (indexMeans d kw cur x).map plainIdx

/-- All tables of a catalog. -/
def tables (c : Catalog) : List Table := c.schemas.flatMap fun s => s.tables

/-- The database that a catalog describes. -/
def dbOf (d : Dialect) (kw : List Str) (c : Catalog) : Db where
  schema s := c.schemas.any fun x => x.schemaName == s
  table k := ((tables c).find? fun t => (t.tableSchema, t.tableName) == k).map
    (tblOf d kw c.currentSchema c.defaultCollation)

/-- The database with further schemas, in which nothing is. -/
def withSchemas (E : Str → Bool) (db : Db) : Db := { db with schema := fun s => E s || db.schema s }

/-- A database with these schemas, in which nothing is. -/
def empty (E : Str → Bool) : Db := ⟨E, fun _ => none⟩

/-- The columns of primary keys are NOT NULL. -/
def KeysNotNull (db : Db) : Prop :=
  ∀ k t n c cs, db.table k = some t → t.con n = some c → c.kind = .primary cs →
    ∀ x ∈ cs, ∀ y, t.col x = some y → y.notNull = true

/-- A key on these columns that is created before all foreign keys: a primary key that is part of
CREATE TABLE (`inline`), or a unique index. -/
def EarlyKey (inline : Bool) (t : Tbl) (cols : List Str) : Prop :=
  (inline = true ∧ ∃ n c, t.con n = some c ∧ c.kind = .primary cols) ∨
  ∃ n x, t.idx n = some x ∧ x.unique = true ∧ x.cols = (cols.map fun c => .column c false) ∧ x.pred = []

/-- The key of a foreign key that leads to a schema which is dumped later than its own is an early one.
(The constraints of a schema are dumped together, after those of the earlier schemas.) -/
def Ordered (d : Dialect) (kw : List Str) (c : Catalog) : Prop :=
  ∀ a s b, c.schemas = a ++ s :: b → ∀ t ∈ s.tables, ∀ f ∈ t.constraints, ∀ cs ref,
    kindOf d c.currentSchema f = .foreign cs ref →
    (∃ x ∈ b, x.schemaName = (key ref.table).1) →
    ∀ u, (dbOf d kw c).table (key ref.table) = some u →
      EarlyKey (decide (d = .mysql ∨ d = .sqlserver)) u ref.cols

/-- A table that can be dumped: nothing of it is ignored, it can be written, its name has no line break,
its constraints and indexes know it, and the definitions of indexes are those of indexes of this table
with these names. -/
structure TableDump (d : Dialect) (kw : List Str) (cur coll : Str) (t : Table) : Prop where
  ignore : t.ignore = false ∧ t.isVirtual = false
  columns : ∀ x ∈ t.columns, x.ignore = false
  constraints : ∀ x ∈ t.constraints, x.ignore = false ∧ x.tableName = t.tableName ∧
    x.constraintType ∈ [b!"PRIMARY KEY", b!"UNIQUE", b!"FOREIGN KEY", b!"CHECK", b!"EXCLUDE"]
  text : TableText d cur coll t
  line : '\n' ∉ t.tableSchema ∧ '\n' ∉ t.tableName
  indexes : ∀ x ∈ t.indexes, (x.sql = [] → IndexOk d false x) ∧ ∃ y, indexMeans d kw cur x = some y ∧
    y.name = x.indexName ∧ y.table = some (fullName cur t.tableSchema t.tableName)

/-- There are no extensions, enums and domains.  (Only Postgres has any; Verif.Spec.DumpTypes.) -/
def NoTypes (c : Catalog) : Prop :=
  c.extensions = [] ∧ ∀ s ∈ c.schemas, s.enums = [] ∧ s.domains = []

/-- A catalog that can be dumped.  `schemaName`: names of schemas that can be written. -/
structure Dumpable (d : Dialect) (kw : List Str) (schemaName : Str → Prop) (c : Catalog) : Prop where
  ok : Ok c
  schemas : ∀ s ∈ c.schemas, s.ignore = false ∧ s.schemaName ≠ [] ∧ schemaName s.schemaName
  tables : ∀ s ∈ c.schemas, ∀ t ∈ s.tables, TableDump d kw c.currentSchema c.defaultCollation t

end DumpSpec
