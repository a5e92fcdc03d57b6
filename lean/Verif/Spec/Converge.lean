import Verif.Spec.Engine
import Verif.Spec.TypeParts
import Verif.Spec.Files

/-!
# What a MySQL migration is meant to achieve

Only the record types of the catalog are taken from the model.
-/

namespace EngineSpec
open SqlSpec Sqddl DdlText CatalogSpec DdlSpec FileSpec

/-- A catalog of a MySQL database: schemas have names, objects know the table they belong to, and
primary keys are called PRIMARY. -/
structure Described (c : Catalog) : Prop where
  ok : Ok c
  schemas : ∀ s ∈ liveSchemas c, s.schemaName ≠ []
  constraints : ∀ t ∈ liveTables c, ∀ x ∈ liveConstraints t,
    x.tableSchema = t.tableSchema ∧ x.tableName = t.tableName
  primary : ∀ t ∈ liveTables c, ∀ x ∈ liveConstraints t, x.constraintType = b!"PRIMARY KEY" →
    x.constraintName = b!"PRIMARY"
  types : ∀ t ∈ liveTables c, ∀ x ∈ liveConstraints t, x.constraintType ∈
    [b!"PRIMARY KEY", b!"UNIQUE", b!"FOREIGN KEY", b!"CHECK", b!"EXCLUDE"]
  indexes : ∀ t ∈ liveTables c, ∀ x ∈ t.indexes,
    x.tableSchema = t.tableSchema ∧ x.tableName = t.tableName

/-- A column, an index or a key exists in one of the tables only, or the primary key differs. -/
def Touched (drop : Bool) (s t : Table) : Prop :=
  (∃ x ∈ liveColumns t, hasColumn s x.columnName = false) ∨
  (∃ x ∈ liveIndexes t, hasIndex s x.indexName = false) ∨
  (∃ x ∈ liveConstraints t, keyConstraint x = true ∧ hasConstraint s x.constraintName = false) ∨
  (∃ q ∈ commonConstraints s t, rekeyed q = true) ∨
  drop = true ∧ ((∃ x ∈ liveIndexes s, hasIndex t x.indexName = false) ∨
    ∃ x ∈ liveConstraints s, keyConstraint x = true ∧ hasConstraint t x.constraintName = false)

/-- The differences of two versions that migrations do not take care of are absent: constraints and
indexes of the same name are the same, except for primary keys; CHECK constraints are neither added
to existing tables nor removed from them; with `drop`, a table from which columns are removed has
another difference; new tables have no ignored indexes. -/
structure Comparable (cur : Str) (drop : Bool) (src dest : Catalog) : Prop where
  constraints : ∀ p ∈ commonTables src dest, ∀ q ∈ commonConstraints p.1 p.2,
    conOf .mysql cur q.1 = conOf .mysql cur q.2 ∨
    (q.1.constraintType = b!"PRIMARY KEY" ∧ rekeyed q = true)
  indexes : ∀ p ∈ commonTables src dest, ∀ x ∈ liveIndexes p.1, ∀ y ∈ liveIndexes p.2,
    x.indexName = y.indexName → idxOf .mysql cur false true x = idxOf .mysql cur false true y
  checks : ∀ p ∈ commonTables src dest, ∀ x ∈ liveConstraints p.2, keyConstraint x = false →
    foreignKey x = false → hasConstraint p.1 x.constraintName = true
  surplusChecks : drop = true → ∀ p ∈ commonTables src dest, ∀ x ∈ liveConstraints p.1,
    keyConstraint x = false → foreignKey x = false → hasConstraint p.2 x.constraintName = true
  surplusColumns : drop = true → ∀ p ∈ commonTables src dest, ∀ x ∈ liveColumns p.1,
    hasColumn p.2 x.columnName = false → Touched drop p.1 p.2
  created : ∀ t ∈ liveTables dest, hasTable src t.tableSchema t.tableName = false →
    ∀ x ∈ t.indexes, x.ignore = false

/-- The second column says the same as the first as far as type, default, NOT NULL and collation are
concerned; the columns of a primary key are NOT NULL anyway. -/
structure Unchanged (coll : Str) (a b : Column) : Prop where
  type : SameMeaning .mysql a.columnType b.columnType
  default : SameDefault .mysql (Go.trimSpace a.columnDefault) (Go.trimSpace b.columnDefault)
  notNull : a.isNotNull = b.isNotNull ∨ b.isPrimaryKey = true
  collation : (if a.collationName = [] then coll else a.collationName) =
    (if b.collationName = [] then coll else b.collationName)

/-- A table is the goal of the migration, except that columns are kept that are `Unchanged`. -/
structure Tbl.Reached (coll : Str) (s t : Table) (u goal : Tbl) : Prop where
  con : u.con = goal.con
  idx : u.idx = goal.idx
  col : ∀ n, u.col n = goal.col n ∨ ∃ a ∈ liveColumns s, ∃ b ∈ liveColumns t,
    a.columnName = n ∧ b.columnName = n ∧ Unchanged coll a b ∧
    u.col n = some (colOf .mysql coll false a) ∧ goal.col n = some (colOf .mysql coll false b)

/-- The database is the goal of the migration, except that columns are kept that are `Unchanged`. -/
structure Db.Reached (cur coll : Str) (drop : Bool) (src dest : Catalog) (db : Db) : Prop where
  schema : db.schema = (Db.goal drop (dbOf cur coll src) (dbOf cur coll dest)).schema
  common : ∀ p ∈ commonTables src dest, ∃ u g,
    db.table (p.2.tableSchema, p.2.tableName) = some u ∧
    (Db.goal drop (dbOf cur coll src) (dbOf cur coll dest)).table
      (p.2.tableSchema, p.2.tableName) = some g ∧
    Tbl.Reached coll p.1 p.2 u g
  other : ∀ k, (∀ p ∈ commonTables src dest, (p.2.tableSchema, p.2.tableName) ≠ k) →
    db.table k = (Db.goal drop (dbOf cur coll src) (dbOf cur coll dest)).table k

/-- The names of the old version, and the tables of the new one, can be expressed in SQL. -/
structure Expressible (cur coll : Str) (src dest : Catalog) : Prop where
  schemas : ∀ s ∈ liveSchemas src ++ liveSchemas dest, PlainName .mysql s.schemaName
  names : ∀ t ∈ liveTables src, PlainName .mysql t.tableName ∧
    (∀ x ∈ liveColumns t, PlainName .mysql x.columnName) ∧
    (∀ x ∈ liveConstraints t, PlainName .mysql x.constraintName) ∧
    ∀ x ∈ liveIndexes t, PlainName .mysql x.indexName
  tables : ∀ t ∈ liveTables dest, TableText .mysql cur coll t
  /-- an index of a table that exists already is written as part of ALTER TABLE -/
  indexes : ∀ t ∈ liveTables dest, ∀ x ∈ t.indexes, x.sql = [] ∧
    IndexOk .mysql (hasTable src t.tableSchema t.tableName) x

/-- A text that can be part of the name of a file that is recorded in the history table. -/
def Safe (n : Str) : Prop := '/' ∉ n ∧ '\'' ∉ n ∧ '\\' ∉ n

instance (n : Str) : Decidable (Safe n) := inferInstanceAs (Decidable (_ ∧ _ ∧ _))

/-- The name of an object can be the end of the name of a migration. -/
def FileWord (n : Str) : Prop := Safe n ∧ ¬ EndsWith n b!".undo"

/-- The names of objects that become part of file names. -/
structure Nameable (pre : Str) (src dest : Catalog) : Prop where
  pre : Safe pre
  schemas : ∀ s ∈ liveSchemas dest, Safe s.schemaName
  tables : ∀ t ∈ liveTables dest, FileWord t.tableName
  fkeys : ∀ t ∈ liveTables src ++ liveTables dest, ∀ x ∈ liveConstraints t, foreignKey x = true →
    FileWord x.constraintName

end EngineSpec
