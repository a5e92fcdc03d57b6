import Verif.Spec.PgColumns
import Verif.Spec.PgFkeys
import Verif.Spec.Converge

/-!
# What a Postgres migration is meant to achieve

Only the record types of the catalog are taken from the model.
-/

namespace PgSpec
open SqlSpec Sqddl DdlText DdlSpec CatalogSpec
open EngineSpec (Key Tbl Db key)

/-! ## Databases -/

/-- What a name can stand for in a schema: a table, or an index or a key of a table. -/
inductive Obj where
  | table
  | index (table : Str)
  | key (table : Str)
  deriving DecidableEq

/-- The schema has this object of this name. -/
def Has (db : Db) (s n : Str) : Obj → Prop
  | .table => ∃ t, db.table (s, n) = some t
  | .index a => ∃ t x, db.table (s, a) = some t ∧ t.idx n = some x
  | .key a => ∃ t c, db.table (s, a) = some t ∧ t.con n = some c ∧ owns c = true

/-- The table has this foreign key. -/
def Foreign (db : Db) (k : Key) (n : Str) (cs : List Str) (ref : Ref) : Prop :=
  ∃ t c, db.table k = some t ∧ t.con n = some c ∧ c.kind = .foreign cs ref

/-- A database that a server can be in: tables are in existing schemas, constraints and indexes are
about columns that exist, a table has at most one primary key, foreign keys reference keys, and names
are not used twice. -/
structure Consistent (db : Db) : Prop where
  schema : ∀ k t, db.table k = some t → db.schema k.1 = true
  named : ∀ k t n c, db.table k = some t → t.con n = some c → c.name = some n
  con : ∀ k t n c, db.table k = some t → t.con n = some c →
    ∀ x ∈ EngineSpec.ConKind.cols c.kind, (t.col x).isSome
  idx : ∀ k t n x, db.table k = some t → t.idx n = some x →
    ∀ y ∈ idxNames x ++ x.incl, (t.col y).isSome
  primary : ∀ k t n m c d cs ds, db.table k = some t → t.con n = some c → t.con m = some d →
    c.kind = .primary cs → d.kind = .primary ds → n = m
  deferred : ∀ k t n c, db.table k = some t → t.con n = some c →
    c.initiallyDeferred = true → c.deferrable = true
  fkey : ∀ k n cs ref, Foreign db k n cs ref → Target db cs ref
  names : ∀ s n o o', Has db s n o → Has db s n o' → o = o'

/-- What stands in the way of a migration from `old` to `new`, and is absent:

* a name that stands for one object before and for another one afterwards,
* a key or a unique index that is removed although a foreign key stays that references its
  columns. -/
structure Passable (old new : Db) : Prop where
  names : ∀ s n o o', Has old s n o → Has new s n o' → o = o'
  keys : ∀ k s t n c cols, old.table k = some s → new.table k = some t → s.con n = some c →
    c.kind = .primary cols ∨ c.kind = .unique cols → t.con n = none →
    ∀ k' m cs ref, Foreign old k' m cs ref → Foreign new k' m cs ref → key ref.table = k →
      ¬ ref.cols.Perm cols
  indexes : ∀ k s t n x, old.table k = some s → new.table k = some t → s.idx n = some x →
    x.unique = true → t.idx n = none →
    ∀ k' m cs ref, Foreign old k' m cs ref → Foreign new k' m cs ref → key ref.table = k →
      ¬ ref.cols.Perm (idxNames x)

/-! ## Catalogs -/

/-- The constraint is a primary key. -/
def primaryKey (c : Constraint) : Bool := c.constraintType == b!"PRIMARY KEY"

/-- A catalog of a Postgres database: schemas have names, objects know the table they belong to, and
the columns of primary keys exist and are NOT NULL. -/
structure Described (c : Catalog) : Prop where
  ok : CatalogSpec.Ok c
  schemas : ∀ s ∈ liveSchemas c, s.schemaName ≠ []
  owned : PgText.Owned c
  types : ∀ t ∈ liveTables c, ∀ x ∈ liveConstraints t, x.constraintType ∈
    [b!"PRIMARY KEY", b!"UNIQUE", b!"FOREIGN KEY", b!"CHECK", b!"EXCLUDE"]
  indexes : ∀ t ∈ liveTables c, ∀ x ∈ t.indexes,
    x.tableSchema = t.tableSchema ∧ x.tableName = t.tableName
  primary : ∀ t ∈ liveTables c, ∀ x ∈ t.constraints, ∀ y ∈ t.constraints, primaryKey x = true →
    primaryKey y = true → x = y
  notNull : ∀ t ∈ liveTables c, ∀ x ∈ liveConstraints t, primaryKey x = true →
    ∀ y ∈ liveColumns t, y.columnName ∈ x.columns → y.isNotNull = true
  flags : ∀ t ∈ liveTables c, ∀ y ∈ liveColumns t, y.isPrimaryKey = true →
    ∃ x ∈ liveConstraints t, primaryKey x = true ∧ y.columnName ∈ x.columns
  keyColumns : ∀ t ∈ liveTables c, ∀ x ∈ liveConstraints t, primaryKey x = true →
    ∀ n ∈ x.columns, hasColumn t n = true

/-- The constraints are the same, except that a foreign key can become deferrable or the contrary. -/
structure SameConstraint (cur : Str) (x y : Constraint) : Prop where
  kind : kindOf .postgres cur x = kindOf .postgres cur y
  valid : x.isNotValid = y.isNotValid
  flags : (x.isDeferrable = y.isDeferrable ∧ x.isInitiallyDeferred = y.isInitiallyDeferred) ∨
    (foreignKey y = true ∧ (y.isInitiallyDeferred = true → y.isDeferrable = true))

/-- A column, an index or a key exists in one of the tables only, or a foreign key is deferrable in
one of them only. -/
def Touched (drop : Bool) (s t : Table) : Prop :=
  (∃ x ∈ liveColumns t, hasColumn s x.columnName = false) ∨
  (∃ x ∈ liveIndexes t, hasIndex s x.indexName = false) ∨
  (∃ x ∈ liveConstraints t, keyConstraint x = true ∧ hasConstraint s x.constraintName = false) ∨
  (∃ q ∈ commonConstraints s t, q.1.isDeferrable ≠ q.2.isDeferrable) ∨
  drop = true ∧ ((∃ x ∈ liveIndexes s, hasIndex t x.indexName = false) ∨
    ∃ x ∈ liveConstraints s, keyConstraint x = true ∧ hasConstraint t x.constraintName = false)

/-- The second version of the table has no column of this name. -/
def gone (t : Table) (y : Column) : Bool := !hasColumn t y.columnName

/-- Two versions of a table have none of the differences that migrations do not take care of.

* Constraints and indexes of the same name are the same.
* CHECK and EXCLUDE constraints are not added to existing tables, and disappear only with one of
  their columns.
* Columns change as in `Alterable`; a generated column is in the way of a change of the type of a
  column that it mentions.
* New keys of existing tables are not deferrable.
* What is removed together with a column is not needed any more.  If nothing but columns is removed
  the migration does nothing.
* The names of the constraints by which columns are made NOT NULL are free.
* Without `drop` the columns of a primary key that stays remain NOT NULL. -/
structure TablePair (cur coll : Str) (early drop : Bool) (s t : Table) : Prop where
  constraints : ∀ q ∈ commonConstraints s t, SameConstraint cur q.1 q.2
  indexes : ∀ x ∈ liveIndexes s, ∀ y ∈ liveIndexes t, x.indexName = y.indexName →
    idxOf .postgres cur false true x = idxOf .postgres cur false true y
  checks : ∀ x ∈ liveConstraints t, keyConstraint x = false → foreignKey x = false →
    hasConstraint s x.constraintName = true
  surplusChecks : drop = true → ∀ x ∈ liveConstraints s, keyConstraint x = false →
    foreignKey x = false → hasConstraint t x.constraintName = false →
    ∃ y ∈ liveColumns s, gone t y = true ∧ conUses y.columnName (conOf .postgres cur x) = true
  columns : ∀ q ∈ commonColumns s t, Alterable coll early q.1 q.2
  types : ∀ q ∈ commonColumns s t,
    q.1.columnType ≠ q.2.columnType ∨ q.1.collationName ≠ q.2.collationName →
    ∀ y ∈ liveColumns s ++ liveColumns t,
      generatedFrom q.2.columnName (colOf .postgres coll false y) = false
  added : ∀ y ∈ liveColumns t, hasColumn s y.columnName = false →
    addable (colOf .postgres coll false y) = true
  keys : ∀ x ∈ liveConstraints t, keyConstraint x = true → hasConstraint s x.constraintName = false →
    x.isDeferrable = false ∧ x.isNotValid = false ∧ ∀ n ∈ x.columns, isExpr n = false
  mentions : drop = true → ∀ y ∈ liveColumns s, gone t y = true →
    (∀ x ∈ liveConstraints s, hasConstraint t x.constraintName = true →
      conUses y.columnName (conOf .postgres cur x) = false) ∧
    (∀ x ∈ liveIndexes s, hasIndex t x.indexName = true →
      idxUses y.columnName (idxOf .postgres cur false true x) = false) ∧
    ∀ z ∈ liveColumns s, generatedFrom y.columnName (colOf .postgres coll false z) = false
  surplusColumns : drop = true → (∃ y ∈ liveColumns s, gone t y = true) → Touched drop s t
  free : ∀ q ∈ commonColumns s t, q.1.isNotNull = false → q.2.isNotNull = true →
    hasConstraint s (t.tableName ++ b!"_" ++ q.2.columnName ++ b!"_not_null_check") = false
  nullable : ∀ q ∈ commonColumns s t, q.1.isNotNull = true → q.2.isNotNull = false →
    drop = true ∨ (liveConstraints t).any primaryKey = true ∨
    ∀ x ∈ liveConstraints s, primaryKey x = true → q.2.columnName ∉ x.columns

/-- Two versions of a database have none of the differences that migrations do not take care of: the
tables that are in both are as in `TablePair`; new tables have no ignored indexes; new foreign keys
are valid; and no two of the new foreign keys, or of the removed ones, lead from a table to another
and back. -/
structure Comparable (cur coll : Str) (early drop : Bool) (src dest : Catalog) : Prop where
  tables : ∀ p ∈ commonTables src dest, TablePair cur coll early drop p.1 p.2
  created : ∀ t ∈ liveTables dest, hasTable src t.tableSchema t.tableName = false →
    (∀ x ∈ t.indexes, x.ignore = false) ∧
    ∀ y ∈ liveColumns t, addable (colOf .postgres coll false y) = true
  valid : ∀ old, ∀ f ∈ PgText.newFkeys src dest old, f.2.isNotValid = false
  newWay : ∀ old, PgText.OneWay (PgText.newFkeys src dest old)
  goneWay : drop = true → PgText.OneWay (PgText.goneFkeys src dest)

/-! ## The goal -/

/-- Of the constraints of two versions of a table what a migration aims at: those of the second one;
without `drop` those of the first one stay, but not a second primary key. -/
def goalCon (cur : Str) (drop : Bool) (s t : Table) (n : Str) : Option Con :=
  match (liveConstraints t).find? fun c => c.constraintName == n with
  | some y => some (conOf .postgres cur y)
  | none =>
    match (liveConstraints s).find? fun c => c.constraintName == n with
    | none => none
    | some x =>
      if drop || (primaryKey x && (liveConstraints t).any primaryKey) then none
      else some (conOf .postgres cur x)

/-- Of two versions of a table what a migration aims at. -/
def goalTbl (cur coll : Str) (drop : Bool) (s t : Table) : Tbl where
  col n := EngineSpec.newer drop ((tblOf cur coll s).col n) ((tblOf cur coll t).col n)
  con := goalCon cur drop s t
  idx n := EngineSpec.newer drop ((tblOf cur coll s).idx n) ((tblOf cur coll t).idx n)

/-- The table of this name. -/
def tab (c : Catalog) (k : Key) : Option Table :=
  (liveTables c).find? fun t => (t.tableSchema, t.tableName) == k

/-- What a migration aims at: with `drop` the new database, otherwise the new database with what the
old one has in addition. -/
def goalDb (cur coll : Str) (drop : Bool) (src dest : Catalog) : Db where
  schema s := hasSchema dest s || (!drop && hasSchema src s)
  table k :=
    match tab src k, tab dest k with
    | some s, some t => some (goalTbl cur coll drop s t)
    | some s, none => if drop then none else some (tblOf cur coll s)
    | none, t => t.map (tblOf cur coll)

/-- A table is the goal of the migration; the columns that both versions have are `ColumnReached`. -/
structure TableReached (coll : Str) (s t : Table) (u goal : Tbl) : Prop where
  con : u.con = goal.con
  idx : u.idx = goal.idx
  col : ∀ n, u.col n = goal.col n ∨ ∃ a ∈ liveColumns s, ∃ b ∈ liveColumns t, ∃ c,
    a.columnName = n ∧ b.columnName = n ∧ u.col n = some c ∧ ColumnReached coll a b c

/-- The database is the goal of the migration; the columns that both versions of a table have are
`ColumnReached`. -/
structure Reached (cur coll : Str) (drop : Bool) (src dest : Catalog) (db : Db) : Prop where
  schema : db.schema = (goalDb cur coll drop src dest).schema
  common : ∀ p ∈ commonTables src dest, ∃ u,
    db.table (p.2.tableSchema, p.2.tableName) = some u ∧
    TableReached coll p.1 p.2 u (goalTbl cur coll drop p.1 p.2)
  other : ∀ k, (∀ p ∈ commonTables src dest, (p.2.tableSchema, p.2.tableName) ≠ k) →
    db.table k = (goalDb cur coll drop src dest).table k

end PgSpec
