import Verif.Spec.MsEngine
import Verif.Spec.MsFkeys
import Verif.Spec.PgConverge

/-!
# What a SQL Server migration is meant to achieve

Only the record types of the catalog are taken from the model.
-/

namespace MsSpec
open SqlSpec Sqddl DdlText DdlSpec CatalogSpec
open EngineSpec (Key Tbl Db key)
open MsText (Differs OneDiffers)
open PgSpec (gone tab)

/-! ## Columns -/

/-- The types mean the same, their arguments included. -/
def SameType (s t : Str) : Prop := SameMeaning .sqlserver s t

/-- The default of a column of the database is a spelling of `s`, or missing if `s` is. -/
def DefaultIs (s : Str) : Option (List Tok) → Prop
  | none => s = []
  | some ts => ∃ x, ts = toks .sqlserver x ∧ SameDefault .sqlserver x s

/-- The collation of a column; `coll` is the default one. -/
def collationOf (coll : Str) (c : Column) : Str :=
  if c.collationName = [] then coll else c.collationName

/-- The first word of the type. -/
def typeHead (c : Column) : Option Tok := ((toks .sqlserver c.columnType).map foldTok).head?

/-- Two versions of a column differ by more than the spelling. -/
def Changed (coll : Str) (a b : Column) : Prop :=
  ¬ SameType a.columnType b.columnType ∨ ¬ SameDefault .sqlserver a.columnDefault b.columnDefault ∨
    a.isNotNull ≠ b.isNotNull ∨ collationOf coll a ≠ collationOf coll b

/-- The column `c` of the database is what `b` says; its type may still be that of `a`, if it has the
same meaning. -/
structure ColumnReached (coll : Str) (a b : Column) (c : Col) : Prop where
  name : c.name = b.columnName
  type : c.type = (colOf .sqlserver coll false b).type ∨
    c.type = (colOf .sqlserver coll false a).type ∧ SameType a.columnType b.columnType
  notNull : c.notNull = (colOf .sqlserver coll false b).notNull
  identity : c.identity = (colOf .sqlserver coll false b).identity
  default : DefaultIs b.columnDefault c.default
  collation : c.collation.getD (.word coll) = .word (collationOf coll b)
  generated : c.generated = (colOf .sqlserver coll false b).generated

/-- The differences between two versions of a column that a migration takes care of.  `pkey`: the
column is in the primary key of the second version.

* Domains and enums do not exist.  A computed column stays as it is.
* The identity clause stays as it is.
* A column that is NOT NULL in the second version, and neither in the primary key nor an identity
  column, is NOT NULL already; besides, its type stays, and it has the default collation or nothing of
  it differs: NOT NULL is not written, so that it would be lost.
* A collation that is not the default one is not removed.
* The type of a column that has a default keeps its name, and its collation stays. -/
structure Alterable (coll : Str) (pkey : Prop) (a b : Column) : Prop where
  name : a.columnName = b.columnName
  domain : a.domainName = [] ∧ b.domainName = [] ∧ a.isEnum = false ∧ b.isEnum = false
  generated : a.generatedExpr = b.generatedExpr ∧ a.generatedExprStored = b.generatedExprStored
  computed : a.generatedExpr ≠ [] → ¬ Differs a b ∧ a.columnDefault = [] ∧ a.columnIdentity = []
  identity : a.columnIdentity = b.columnIdentity
  identities : a.columnIdentity ≠ [] → a.isNotNull = true ∧ b.isNotNull = true ∧
    a.columnDefault = [] ∧ b.columnDefault = []
  keeps : b.isNotNull = true → ¬ pkey → b.columnIdentity = [] → a.isNotNull = true ∧
    (Differs a b → a.columnType = b.columnType ∧ collationOf coll b = coll)
  collation : collationOf coll b = coll → collationOf coll a = coll
  held : a.columnDefault ≠ [] → typeHead a = typeHead b ∧ collationOf coll a = collationOf coll b
  defaults : Go.trimSpace a.columnDefault = a.columnDefault ∧
    Go.trimSpace b.columnDefault = b.columnDefault

/-! ## Databases -/

/-- What a name can stand for in a schema: a table, or a constraint of a table. -/
inductive Obj where
  | table
  | con (table : Str)
  deriving DecidableEq

/-- The schema has this object of this name. -/
def Has (db : Db) (s n : Str) : Obj → Prop
  | .table => ∃ t, db.table (s, n) = some t
  | .con a => ∃ t c, db.table (s, a) = some t ∧ t.con n = some c

/-- The table has this foreign key. -/
def Foreign (db : Db) (k : Key) (n : Str) (cs : List Str) (ref : Ref) : Prop :=
  ∃ t c, db.table k = some t ∧ t.con n = some c ∧ c.kind = .foreign cs ref

/-- The table has this column. -/
def HasCol (db : Db) (k : Key) (n : Str) : Prop := ∃ t, db.table k = some t ∧ (t.col n).isSome

/-- The table has this column, which has a default. -/
def HasDefault (db : Db) (k : Key) (n : Str) : Prop :=
  ∃ t x, db.table k = some t ∧ t.col n = some x ∧ x.default.isSome

/-- A database that a server can be in: tables are in existing schemas, constraints and indexes are
about columns that exist, a table has at most one primary key, foreign keys reference keys, and names
are not used twice. -/
structure Consistent (db : Db) : Prop where
  schema : ∀ k t, db.table k = some t → db.schema k.1 = true
  named : ∀ k t n c, db.table k = some t → t.con n = some c → c.name = some n
  con : ∀ k t n c, db.table k = some t → t.con n = some c →
    ∀ x ∈ EngineSpec.ConKind.cols c.kind, (t.col x).isSome
  idx : ∀ k t n x, db.table k = some t → t.idx n = some x →
    (∀ y ∈ idxNames x ++ x.incl, (t.col y).isSome) ∧ ∀ ts d, IdxCol.expr ts d ∉ x.cols
  primary : ∀ k t n m c d cs ds, db.table k = some t → t.con n = some c → t.con m = some d →
    c.kind = .primary cs → d.kind = .primary ds → n = m
  fkey : ∀ k n cs ref, Foreign db k n cs ref → Target db cs ref
  names : ∀ s n o o', Has db s n o → Has db s n o' → o = o'
  keys : ∀ k t n c x, db.table k = some t → t.con n = some c → t.idx n = some x →
    EngineSpec.isKey c = false

/-! ## Catalogs -/

/-- A catalog of a SQL Server database: schemas have names, objects know the table they belong to, and
the columns of primary keys exist and are NOT NULL. -/
structure Described (c : Catalog) : Prop where
  ok : CatalogSpec.Ok c
  schemas : ∀ s ∈ liveSchemas c, s.schemaName ≠ []
  owned : PgText.Owned c
  types : ∀ t ∈ liveTables c, ∀ x ∈ liveConstraints t, x.constraintType ∈
    [b!"PRIMARY KEY", b!"UNIQUE", b!"FOREIGN KEY", b!"CHECK"]
  indexes : ∀ t ∈ liveTables c, ∀ x ∈ t.indexes,
    x.tableSchema = t.tableSchema ∧ x.tableName = t.tableName
  primary : ∀ t ∈ liveTables c, ∀ x ∈ t.constraints, ∀ y ∈ t.constraints, PgSpec.primaryKey x = true →
    PgSpec.primaryKey y = true → x = y
  notNull : ∀ t ∈ liveTables c, ∀ x ∈ liveConstraints t, PgSpec.primaryKey x = true →
    ∀ y ∈ liveColumns t, y.columnName ∈ x.columns → y.isNotNull = true ∧ y.generatedExpr = []
  keyColumns : ∀ t ∈ liveTables c, ∀ x ∈ liveConstraints t, PgSpec.primaryKey x = true →
    ∀ n ∈ x.columns, hasColumn t n = true
  identity : ∀ t ∈ liveTables c, ∀ y ∈ liveColumns t, ∀ z ∈ liveColumns t, y.columnIdentity ≠ [] →
    z.columnIdentity ≠ [] → y.columnName = z.columnName

/-- The column is in the primary key of the table. -/
def inKey (t : Table) (n : Str) : Prop :=
  ∃ x ∈ liveConstraints t, PgSpec.primaryKey x = true ∧ n ∈ x.columns

/-- One of these columns differs. -/
def Involved (s t : Table) (cols : List Str) : Prop :=
  ∃ q ∈ commonColumns s t, Differs q.1 q.2 ∧ q.1.columnName ∈ cols

/-- A column, an index or a key exists in one of the tables only, or a column is NOT NULL in one of
them only. -/
def Touched (drop : Bool) (s t : Table) : Prop :=
  (∃ x ∈ liveColumns t, hasColumn s x.columnName = false) ∨
  (∃ x ∈ liveIndexes t, hasIndex s x.indexName = false) ∨
  (∃ x ∈ liveConstraints t, keyConstraint x = true ∧ hasConstraint s x.constraintName = false) ∨
  (∃ q ∈ commonColumns s t, q.1.isNotNull ≠ q.2.isNotNull) ∨
  drop = true ∧ ((∃ x ∈ liveIndexes s, hasIndex t x.indexName = false) ∨
    ∃ x ∈ liveConstraints s, keyConstraint x = true ∧ hasConstraint t x.constraintName = false)

/-- Two versions of a table have none of the differences that migrations do not take care of.

* Constraints and indexes of the same name are the same.
* CHECK constraints are neither added to existing tables nor removed.
* Columns change as in `Alterable`; of the columns of a key or an index at most one differs.
* A column that differs is not mentioned by CHECK constraints and computed columns, and by an index
  only as one of its columns.
* A column that is removed has no default and is not mentioned by anything that stays, and another
  column stays.  If nothing but columns is removed the migration does nothing.
* A new identity column is the only one.
* Without `drop` the columns of a primary key that stays remain NOT NULL. -/
structure TablePair (cur coll : Str) (drop : Bool) (s t : Table) : Prop where
  constraints : ∀ q ∈ commonConstraints s t, conOf .sqlserver cur q.1 = conOf .sqlserver cur q.2
  indexes : ∀ x ∈ liveIndexes s, ∀ y ∈ liveIndexes t, x.indexName = y.indexName →
    idxOf .sqlserver cur false true x = idxOf .sqlserver cur false true y
  checks : ∀ x ∈ liveConstraints t, keyConstraint x = false → foreignKey x = false →
    hasConstraint s x.constraintName = true
  surplusChecks : drop = true → ∀ x ∈ liveConstraints s, keyConstraint x = false →
    foreignKey x = false → hasConstraint t x.constraintName = true
  columns : ∀ q ∈ commonColumns s t, Alterable coll (inKey t q.2.columnName) q.1 q.2
  oneKey : ∀ x ∈ liveConstraints s, keyConstraint x = true → OneDiffers (s, t) x.columns
  oneIndex : ∀ x ∈ liveIndexes s, OneDiffers (s, t) x.columns
  alone : ∀ q ∈ commonColumns s t, Differs q.1 q.2 →
    (∀ x ∈ liveConstraints s, keyConstraint x = false → foreignKey x = false →
      conUses q.1.columnName (conOf .sqlserver cur x) = false) ∧
    (∀ x ∈ liveIndexes s, idxUses q.1.columnName (idxOf .sqlserver cur false true x) = true →
      q.1.columnName ∈ x.columns) ∧
    ∀ z ∈ liveColumns s ++ liveColumns t,
      generatedFrom q.1.columnName (colOf .sqlserver coll false z) = false
  added : ∀ y ∈ liveColumns t, hasColumn s y.columnName = false →
    addable (colOf .sqlserver coll false y) = true
  identity : ∀ y ∈ liveColumns t, hasColumn s y.columnName = false → y.columnIdentity ≠ [] →
    ∀ z ∈ liveColumns s, z.columnIdentity = []
  mentions : drop = true → ∀ y ∈ liveColumns s, gone t y = true →
    y.columnDefault = [] ∧
    (∀ x ∈ liveConstraints s, hasConstraint t x.constraintName = true →
      conUses y.columnName (conOf .sqlserver cur x) = false) ∧
    (∀ x ∈ liveIndexes s, hasIndex t x.indexName = true →
      idxUses y.columnName (idxOf .sqlserver cur false true x) = false) ∧
    ∀ z ∈ liveColumns s, generatedFrom y.columnName (colOf .sqlserver coll false z) = false
  surplusColumns : drop = true → (∃ y ∈ liveColumns s, gone t y = true) →
    Touched drop s t ∧ commonColumns s t ≠ []
  nullable : ∀ q ∈ commonColumns s t, q.1.isNotNull = true → q.2.isNotNull = false →
    drop = true ∨ (liveConstraints t).any PgSpec.primaryKey = true ∨
    ∀ x ∈ liveConstraints s, PgSpec.primaryKey x = true → q.2.columnName ∉ x.columns

/-! ## The goal -/

/-- Of the constraints of two versions of a table what a migration aims at: those of the second one;
without `drop` those of the first one stay, but not a second primary key. -/
def goalCon (cur : Str) (drop : Bool) (s t : Table) (n : Str) : Option Con :=
  match (liveConstraints t).find? fun c => c.constraintName == n with
  | some y => some (conOf .sqlserver cur y)
  | none =>
    match (liveConstraints s).find? fun c => c.constraintName == n with
    | none => none
    | some x =>
      if drop || (PgSpec.primaryKey x && (liveConstraints t).any PgSpec.primaryKey) then none
      else some (conOf .sqlserver cur x)

/-- Of two versions of a table what a migration aims at. -/
def goalTbl (cur coll : Str) (drop : Bool) (s t : Table) : Tbl where
  col n := EngineSpec.newer drop ((tblOf cur coll s).col n) ((tblOf cur coll t).col n)
  con := goalCon cur drop s t
  idx n := EngineSpec.newer drop ((tblOf cur coll s).idx n) ((tblOf cur coll t).idx n)

/-- What a migration aims at: with `drop` the new database, otherwise the new database with what the
old one has in addition. -/
def goalDb (cur coll : Str) (drop : Bool) (src dest : Catalog) : Db where
  schema s := hasSchema dest s || (!drop && hasSchema src s)
  table k :=
    match tab src k, tab dest k with
    | some s, some t => some (goalTbl cur coll drop s t)
    | some s, none => if drop then none else some (tblOf cur coll s)
    | none, t => t.map (tblOf cur coll)

/-- A foreign key that stays and that is certainly dropped and added again: one of its columns is
changed. -/
def Renewed (coll : Str) (src dest : Catalog) (k : Key) (n : Str) : Prop :=
  ∃ p ∈ commonTables src dest, (p.1.tableSchema, p.1.tableName) = k ∧
    ∃ c ∈ liveConstraints p.1, foreignKey c = true ∧ c.constraintName = n ∧
      ∃ q ∈ commonColumns p.1 p.2, Changed coll q.1 q.2 ∧ q.1.columnName ∈ c.columns

/-- What stands in the way of a migration from `old` to `new`, and is absent:

* a name that stands for one object before and for another one afterwards,
* a key or a unique index that is removed, or that is dropped and added again because of one of its
  columns, although a foreign key stays that references its columns and that is not dropped and added
  again itself. -/
structure Passable (cur coll : Str) (drop : Bool) (src dest : Catalog) (old new : Db) : Prop where
  names : ∀ s n o o', Has old s n o → Has new s n o' → o = o'
  indexNames : ∀ k s t n, old.table k = some s → new.table k = some t →
    (∀ x c, s.idx n = some x → t.con n = some c → EngineSpec.isKey c = false) ∧
    ∀ x c, t.idx n = some x → s.con n = some c → EngineSpec.isKey c = false
  keys : ∀ p ∈ commonTables src dest, ∀ x ∈ liveConstraints p.1, keyConstraint x = true →
    goalCon cur drop p.1 p.2 x.constraintName = none ∨ Involved p.1 p.2 x.columns →
    ∀ k m cs ref, Foreign old k m cs ref → Foreign new k m cs ref → ¬ Renewed coll src dest k m →
      key ref.table = (p.1.tableSchema, p.1.tableName) → ¬ ref.cols.Perm x.columns
  indexes : ∀ p ∈ commonTables src dest, ∀ x ∈ liveIndexes p.1, x.isUnique = true →
    drop = true ∧ hasIndex p.2 x.indexName = false ∨ Involved p.1 p.2 x.columns →
    ∀ k m cs ref, Foreign old k m cs ref → Foreign new k m cs ref → ¬ Renewed coll src dest k m →
      key ref.table = (p.1.tableSchema, p.1.tableName) → ¬ ref.cols.Perm x.columns

/-- Defaults that are dropped are found: in no version of the database another default of the table is
found with them. -/
def Findable (N : Numbers) (src dest : Catalog) (old new : Db) : Prop :=
  ∀ p ∈ commonTables src dest, ∀ q ∈ commonColumns p.1 p.2, q.1.columnDefault ≠ [] →
    q.1.columnDefault ≠ q.2.columnDefault →
    ∀ d, d ≠ q.1.columnName → HasDefault old (p.1.tableSchema, p.1.tableName) d ∨
        HasDefault new (p.1.tableSchema, p.1.tableName) d →
      ¬ N.other q.1.columnName (N.num (p.1.tableSchema, p.1.tableName) d) ∧
      ∀ k, HasCol old k q.1.columnName ∨ HasCol new k q.1.columnName →
        N.num k q.1.columnName ≠ N.num (p.1.tableSchema, p.1.tableName) d

/-- Two versions of a database have none of the differences that migrations do not take care of: the
tables that are in both are as in `TablePair`; new tables have no ignored indexes; schemas that are
dropped have no ignored tables; of the columns of a foreign key at most one differs; and new foreign
keys lead between other tables than those that are dropped and added again. -/
structure Comparable (cur coll : Str) (drop : Bool) (src dest : Catalog) : Prop where
  tables : ∀ p ∈ commonTables src dest, TablePair cur coll drop p.1 p.2
  created : ∀ t ∈ liveTables dest, hasTable src t.tableSchema t.tableName = false →
    (∀ x ∈ t.indexes, x.ignore = false) ∧
    ∀ y ∈ liveColumns t, addable (colOf .sqlserver coll false y) = true
  dropped : drop = true → ∀ s ∈ liveSchemas src, hasSchema dest s.schemaName = false →
    ∀ t ∈ s.tables, t.ignore = false
  apart : MsText.Apart drop src dest
  one : MsText.OneColumn src dest

/-- A table is the goal of the migration; the columns that both versions have are `ColumnReached`. -/
structure TableReached (coll : Str) (s t : Table) (u goal : Tbl) : Prop where
  con : u.con = goal.con
  idx : u.idx = goal.idx
  col : ∀ n, u.col n = goal.col n ∨ ∃ a ∈ liveColumns s, ∃ b ∈ liveColumns t, ∃ c,
    a.columnName = n ∧ b.columnName = n ∧ u.col n = some c ∧ ColumnReached coll a b c

/-- The database is the goal of the migration; the columns that both versions of a table have are
`ColumnReached`. -/
structure Reached (cur coll : Str) (drop : Bool) (src dest : Catalog) (db : Db) : Prop where
  schema : db.schema = (goalDb cur coll drop src dest).schema
  common : ∀ p ∈ commonTables src dest, ∃ u,
    db.table (p.2.tableSchema, p.2.tableName) = some u ∧
    TableReached coll p.1 p.2 u (goalTbl cur coll drop p.1 p.2)
  other : ∀ k, (∀ p ∈ commonTables src dest, (p.2.tableSchema, p.2.tableName) ≠ k) →
    db.table k = (goalDb cur coll drop src dest).table k

end MsSpec
