import Verif.Model.Catalog

/-!
# Comparing two catalogs

The functions `newMySQLMigration`, `newPostgresMigration`, `newSQLServerMigration` and
`newSQLiteMigration`.  The first three walk over the two catalogs with the same loops (the Go
code repeats them); the walk is modelled once, as the list of things it appends to the fields of
the migration, in the order in which it appends them, and takes the comparison of two tables of
the same name as a parameter.  Pointers into a catalog are the objects they point to.
-/

namespace Sqddl
open Go

/-- The fields of mysqlAlterTable (/repo/ddl/mysql_migration.go:23-33), postgresAlterTable
(/repo/ddl/postgres_migration.go:36-55), sqlserverAlterTable
(/repo/ddl/sqlserver_migration.go:37-55) and sqliteAlterTable (/repo/ddl/sqlite_migration.go:14-26)
in one record; `createIndexes` and `addConstraints` are called `createIndexesConcurrently` and
`addConstraintsConcurrently` for Postgres.  `tableSchema` and `tableName` are those of
`destTable`. -/
structure AlterTable where
  srcTable : Table := {}
  destTable : Table := {}
  dropConstraints : List Constraint := []
  dropIndexes : List Index := []
  dropColumns : List Column := []
  addColumns : List Column := []
  alterColumns : List (Column × Column) := []
  alterConstraints : List (Constraint × Constraint) := []
  validateNotNull : List Column := []
  createIndexes : List Index := []
  addConstraints : List Constraint := []
deriving DecidableEq, Repr

/-- One append to a field of the migration. -/
inductive Ev where
  | dropSchema (s : Schema)
  | createSchema (name : Str)
  | dropTable (t : Table)
  | createTable (t : Table)
  | dropFkey (c : Constraint)
  /-- a foreign key of a table that is created (`addFastFkeys`; MySQL: `addFkeys`) -/
  | addFastFkey (c : Constraint)
  /-- a foreign key that is missing in an existing table (`addFkeys`) -/
  | addFkey (c : Constraint)
  /-- SQL Server: a foreign key that is dropped and added again because one of its columns is
  altered -/
  | redoFkey (c : Constraint)
  /-- SQL Server: a warning -/
  | warn (w : Str)
  | alter (a : AlterTable)
deriving DecidableEq, Repr

/-- `case PRIMARY_KEY, UNIQUE` -/
def isKey (c : Constraint) : Bool := c.constraintType = PRIMARY_KEY ∨ c.constraintType = UNIQUE

/-- `case FOREIGN_KEY` -/
def isFkey (c : Constraint) : Bool := c.constraintType = FOREIGN_KEY

/-! ## The loops over one pair of tables -/

/-- The constraints of the source table that are not ignored and for which GetConstraint finds
none in the destination: /repo/ddl/mysql_migration.go:128-134, postgres_migration.go:204-210,
sqlserver_migration.go:222-228, sqlite_migration.go:132-138. -/
def surplusConstraints (destCache : CatalogCache) (src dest : Table) : List Constraint :=
  src.constraints.filter fun c =>
    !c.ignore && (destCache.getConstraint dest c.constraintName).toOption.isNone

/-- /repo/ddl/mysql_migration.go:146-156, postgres_migration.go:228-238,
sqlserver_migration.go:247-258, sqlite_migration.go:143-153 -/
def surplusIndexes (destCache : CatalogCache) (src dest : Table) : List Index :=
  src.indexes.filter fun x =>
    !x.ignore && (destCache.getIndex dest x.indexName).toOption.isNone

/-- /repo/ddl/mysql_migration.go:157-167, postgres_migration.go:239-249,
sqlserver_migration.go:259-269, sqlite_migration.go:154-165 -/
def surplusColumns (destCache : CatalogCache) (src dest : Table) : List Column :=
  src.columns.filter fun x =>
    !x.ignore && (destCache.getColumn dest x.columnName).toOption.isNone

/-- /repo/ddl/mysql_migration.go:169-179, postgres_migration.go:251-261,
sqlserver_migration.go:272-283, sqlite_migration.go:166-177 -/
def missingColumns (srcCache : CatalogCache) (src dest : Table) : List Column :=
  dest.columns.filter fun x =>
    !x.ignore && (srcCache.getColumn src x.columnName).toOption.isNone

/-- The pairs of columns that reach the comparison: /repo/ddl/mysql_migration.go:169-180,
postgres_migration.go:251-262, sqlserver_migration.go:272-292, sqlite_migration.go:166-178. -/
def commonColumns (srcCache : CatalogCache) (src dest : Table) : List (Column × Column) :=
  dest.columns.filterMap fun x =>
    if x.ignore then none
    else (srcCache.getColumn src x.columnName).toOption.map fun s => (s, x)

/-- /repo/ddl/mysql_migration.go:215-225, postgres_migration.go:300-310,
sqlserver_migration.go:325-335, sqlite_migration.go:197-207 -/
def missingIndexes (srcCache : CatalogCache) (src dest : Table) : List Index :=
  dest.indexes.filter fun x =>
    !x.ignore && (srcCache.getIndex src x.indexName).toOption.isNone

/-- /repo/ddl/mysql_migration.go:226-232, postgres_migration.go:312-318,
sqlserver_migration.go:337-346, sqlite_migration.go:208-214 -/
def missingConstraints (srcCache : CatalogCache) (src dest : Table) : List Constraint :=
  dest.constraints.filter fun c =>
    !c.ignore && (srcCache.getConstraint src c.constraintName).toOption.isNone

/-- The pairs of constraints of the same name: /repo/ddl/mysql_migration.go:226-231, 243-256,
postgres_migration.go:312-317, 340-343. -/
def commonConstraints (srcCache : CatalogCache) (src dest : Table) :
    List (Constraint × Constraint) :=
  dest.constraints.filterMap fun c =>
    if c.ignore then none
    else (srcCache.getConstraint src c.constraintName).toOption.map fun s => (s, c)

/-- The result of normalizeColumnType; where it panics (see `comparedOk`) an arbitrary value. -/
def normType (d : Dialect) (t : Str) : Str × Str × Str :=
  (normalizeColumnType d t).getD ([], [], [])

/-- `if c == "" { c = m.defaultCollation }`, /repo/ddl/mysql_migration.go:197-204 -/
def collationOr (defaultCollation c : Str) : Str := if c = [] then defaultCollation else c

/-- `columnsAreDifferent`: /repo/ddl/mysql_migration.go:180-209, postgres_migration.go:262-291,
sqlserver_migration.go:292-318, sqlite_migration.go:178-191. -/
def columnsAreDifferent (d : Dialect) (defaultCollation : Str) (s t : Column) : Bool :=
  let types :=
    match d with
    | .sqlite => decide (s.columnType ≠ t.columnType)
    | _ => decide (normType d s.columnType ≠ normType d t.columnType)
  let defaults :=
    decide (normalizeColumnDefault d s.columnDefault ≠ normalizeColumnDefault d t.columnDefault)
  let notNull :=
    match d with
    | .sqlite | .sqlserver => s.isNotNull != t.isNotNull
    | _ => s.isNotNull != t.isNotNull && !t.isPrimaryKey
  let identity :=
    match d with
    | .sqlite | .sqlserver => false
    | _ => (s.columnIdentity ≠ [] ∧ t.columnIdentity = []) ∨
           (s.columnIdentity = [] ∧ t.columnIdentity ≠ [])
  let collation :=
    match d with
    | .sqlite => false
    | _ => decide (collationOr defaultCollation s.collationName ≠
                   collationOr defaultCollation t.collationName)
  types || defaults || notNull || identity || collation

/-- the pairs for which `columnsAreDifferent` is true -/
def changedColumns (d : Dialect) (defaultCollation : Str) (srcCache : CatalogCache)
    (src dest : Table) : List (Column × Column) :=
  (commonColumns srcCache src dest).filter fun p => columnsAreDifferent d defaultCollation p.1 p.2

/-! ## The walk over schemas and tables -/

/-- What `walk` needs to know: both catalogs and their caches. -/
structure DiffEnv where
  src : Catalog
  dest : Catalog
  srcCache : CatalogCache
  destCache : CatalogCache
  dropObjects : Bool

/-- /repo/ddl/mysql_migration.go:37-42, postgres_migration.go:59-64, sqlserver_migration.go:59-64 -/
def diffEnv (src dest : Catalog) (dropObjects : Bool) : DiffEnv where
  src := src
  dest := dest
  srcCache := newCatalogCache src
  destCache := newCatalogCache dest
  dropObjects := dropObjects

/-- The loop over the source schemas, body: /repo/ddl/mysql_migration.go:44-66,
postgres_migration.go:85-115, sqlserver_migration.go:88-119. -/
def dropSchemaEvents (e : DiffEnv) (s : Schema) : List Ev :=
  if s.ignore then []
  else if (e.destCache.getSchema e.dest s.schemaName).toOption.isSome then []
  else
    (if s.schemaName ≠ [] then [Ev.dropSchema s] else []) ++
    s.tables.flatMap fun t =>
      if t.ignore then [] else (e.srcCache.getForeignKeys t).map Ev.dropFkey

/-- CREATE TABLE and ADD FOREIGN KEY: /repo/ddl/mysql_migration.go:84-88 and 115-119,
postgres_migration.go:133-146 and 182-195, sqlserver_migration.go:138-151 and 189-202. -/
def createTableEvents (e : DiffEnv) (t : Table) : List Ev :=
  Ev.createTable t :: (e.destCache.getForeignKeys t).map Ev.addFastFkey

/-- The loop over the source tables of a schema, body: /repo/ddl/mysql_migration.go:93-106,
postgres_migration.go:151-174, sqlserver_migration.go:157-180. -/
def dropTableEvents (e : DiffEnv) (destSchema : Schema) (t : Table) : List Ev :=
  if t.ignore then []
  else if (e.destCache.getTable destSchema t.tableName).toOption.isSome then []
  else Ev.dropTable t :: (e.srcCache.getForeignKeys t).map Ev.dropFkey

/-- The loop over the destination tables, body: /repo/ddl/mysql_migration.go:108-264,
postgres_migration.go:175-363, sqlserver_migration.go:182-442. -/
def destTableEvents (e : DiffEnv) (alter : Table → Table → List Ev) (srcSchema : Schema)
    (t : Table) : List Ev :=
  if t.ignore then []
  else
    match (e.srcCache.getTable srcSchema t.tableName).toOption with
    | none => createTableEvents e t
    | some s => alter s t

/-- The loop over the destination schemas, body: /repo/ddl/mysql_migration.go:69-265,
postgres_migration.go:118-364, sqlserver_migration.go:123-443. -/
def destSchemaEvents (e : DiffEnv) (alter : Table → Table → List Ev) (s : Schema) : List Ev :=
  if s.ignore then []
  else
    match (e.srcCache.getSchema e.src s.schemaName).toOption with
    | none =>
      (if s.schemaName ≠ [] then [Ev.createSchema s.schemaName] else []) ++
      s.tables.flatMap fun t => if t.ignore then [] else createTableEvents e t
    | some srcSchema =>
      (if e.dropObjects then srcSchema.tables.flatMap (dropTableEvents e s) else []) ++
      s.tables.flatMap (destTableEvents e alter srcSchema)

/-- Both loops: /repo/ddl/mysql_migration.go:43-266, postgres_migration.go:84-365,
sqlserver_migration.go:87-444. -/
def walk (e : DiffEnv) (alter : Table → Table → List Ev) : List Ev :=
  (if e.dropObjects then e.src.schemas.flatMap (dropSchemaEvents e) else []) ++
  e.dest.schemas.flatMap (destSchemaEvents e alter)

/-! ## The comparison of two tables -/

/-- `if dropObjects`: the fields that are filled only with dropObjects. -/
def whenDrop {α : Type} (e : DiffEnv) (xs : List α) : List α := if e.dropObjects then xs else []

/-- /repo/ddl/mysql_migration.go:248-256: a primary key (all are called PRIMARY) whose columns
changed -/
def pkeyChanged (p : Constraint × Constraint) : Bool :=
  p.2.constraintType = PRIMARY_KEY ∧ join ['\x00'] p.1.columns ≠ join ['\x00'] p.2.columns

/-- /repo/ddl/mysql_migration.go:226-256: the constraints that are added, in the order of the
destination table -/
def mysqlAddConstraints (e : DiffEnv) (src dest : Table) : List Constraint :=
  dest.constraints.filter fun c =>
    !c.ignore &&
    match (e.srcCache.getConstraint src c.constraintName).toOption with
    | none => isKey c
    | some s => pkeyChanged (s, c)

/-- /repo/ddl/mysql_migration.go:122-256 -/
def mysqlAlterTable (e : DiffEnv) (src dest : Table) : AlterTable where
  srcTable := src
  destTable := dest
  dropConstraints :=
    whenDrop e ((surplusConstraints e.destCache src dest).filter isKey) ++
    ((commonConstraints e.srcCache src dest).filter pkeyChanged).map (·.1)
  dropIndexes := whenDrop e (surplusIndexes e.destCache src dest)
  dropColumns := whenDrop e (surplusColumns e.destCache src dest)
  addColumns := missingColumns e.srcCache src dest
  alterColumns := changedColumns .mysql e.src.defaultCollation e.srcCache src dest
  createIndexes := missingIndexes e.srcCache src dest
  addConstraints := mysqlAddConstraints e src dest

/-- The condition under which the alterTable is kept: /repo/ddl/mysql_migration.go:257-264,
postgres_migration.go:354-363, sqlserver_migration.go:434-441, sqlite_migration.go:219-224 (only
Postgres has alterConstraints).  `dropColumns` is not part of it. -/
def AlterTable.worthKeeping (a : AlterTable) : Bool :=
  !a.dropConstraints.isEmpty || !a.dropIndexes.isEmpty || !a.addColumns.isEmpty ||
  !a.alterColumns.isEmpty || !a.alterConstraints.isEmpty || !a.createIndexes.isEmpty ||
  !a.addConstraints.isEmpty

/-- the alterTable as an event -/
def alterEvents (a : AlterTable) : List Ev := if a.worthKeeping then [Ev.alter a] else []

/-- /repo/ddl/mysql_migration.go:122-264 -/
def mysqlAlter (e : DiffEnv) (src dest : Table) : List Ev :=
  (whenDrop e ((surplusConstraints e.destCache src dest).filter isFkey)).map Ev.dropFkey ++
  ((missingConstraints e.srcCache src dest).filter isFkey).map Ev.addFkey ++
  alterEvents (mysqlAlterTable e src dest)

/-- /repo/ddl/mysql_migration.go:35-267 `newMySQLMigration` -/
def mysqlEvents (src dest : Catalog) (dropObjects : Bool) : List Ev :=
  let e := diffEnv src dest dropObjects
  walk e (mysqlAlter e)

/-- /repo/ddl/postgres_migration.go:345-353: the primary key that is dropped because another one
is added -/
def pgReplacedPkey (e : DiffEnv) (src dest : Table) : List Constraint :=
  if (missingConstraints e.srcCache src dest).any (fun c => c.constraintType = PRIMARY_KEY) &&
      !e.dropObjects then
    (e.srcCache.getPrimaryKey src).toOption.toList
  else []

/-- /repo/ddl/postgres_migration.go:198-353 -/
def pgAlterTable (e : DiffEnv) (src dest : Table) : AlterTable where
  srcTable := src
  destTable := dest
  dropConstraints :=
    whenDrop e ((surplusConstraints e.destCache src dest).filter isKey) ++
    pgReplacedPkey e src dest
  dropIndexes := whenDrop e (surplusIndexes e.destCache src dest)
  dropColumns := whenDrop e (surplusColumns e.destCache src dest)
  addColumns := missingColumns e.srcCache src dest
  alterColumns := changedColumns .postgres e.src.defaultCollation e.srcCache src dest
  alterConstraints := (commonConstraints e.srcCache src dest).filter fun p =>
    p.1.isDeferrable != p.2.isDeferrable || p.1.isInitiallyDeferred != p.2.isInitiallyDeferred
  validateNotNull :=
    ((changedColumns .postgres e.src.defaultCollation e.srcCache src dest).filter fun p =>
      !p.1.isNotNull && p.2.isNotNull && !lowerThan e.src.versionNums [12]).map (·.2)
  createIndexes := missingIndexes e.srcCache src dest
  addConstraints := (missingConstraints e.srcCache src dest).filter isKey

/-- /repo/ddl/postgres_migration.go:198-363 -/
def pgAlter (e : DiffEnv) (src dest : Table) : List Ev :=
  (whenDrop e ((surplusConstraints e.destCache src dest).filter isFkey)).map Ev.dropFkey ++
  ((missingConstraints e.srcCache src dest).filter isFkey).map Ev.addFkey ++
  alterEvents (pgAlterTable e src dest)

/-- /repo/ddl/postgres_migration.go:57-366 `newPostgresMigration`, before the foreign keys are
grouped -/
def pgEvents (src dest : Catalog) (dropObjects : Bool) : List Ev :=
  let e := diffEnv src dest dropObjects
  walk e (pgAlter e)

/-! ### SQL Server -/

/-- /repo/ddl/sqlserver_migration.go:369-374: the position of the primary key that is dropped
although dropObjects is not set -/
def mssqlReplacedPkeyPos (e : DiffEnv) (src dest : Table) : Option Nat :=
  match (e.srcCache.getPrimaryKey src).toOption, (e.destCache.getPrimaryKey dest).toOption with
  | some s, some t =>
    if !e.dropObjects && decide (s.constraintName ≠ t.constraintName) then
      e.srcCache.pkeys.get (src.tableSchema, src.tableName)
    else none
  | _, _ => none

/-- `droppedConstraint` for the constraint at position `k` of the source table:
/repo/ddl/sqlserver_migration.go:246, 373 -/
def mssqlDroppedConstraint (e : DiffEnv) (src dest : Table) (c : Constraint) (k : Nat) : Bool :=
  (e.dropObjects && (!c.ignore && (e.destCache.getConstraint dest c.constraintName).toOption.isNone))
  || mssqlReplacedPkeyPos e src dest == some k

/-- `droppedIndex`: /repo/ddl/sqlserver_migration.go:257 -/
def mssqlDroppedIndex (e : DiffEnv) (dest : Table) (x : Index) : Bool :=
  e.dropObjects && (!x.ignore && (e.destCache.getIndex dest x.indexName).toOption.isNone)

/-- /repo/ddl/sqlserver_migration.go:379-389, 401-404: the indexes that depend on a column and
are not dropped, one entry for each occurrence of the column -/
def mssqlIndexDeps (e : DiffEnv) (src dest : Table) (column : Str) : List Index :=
  (src.indexes.flatMap fun x =>
    if x.ignore then [] else (x.columns.filter (· = column)).map fun _ => x).filter
  fun x => !mssqlDroppedIndex e dest x

/-- /repo/ddl/sqlserver_migration.go:390-398, 408-411 -/
def mssqlConstraintDeps (e : DiffEnv) (src dest : Table) (column : Str) : List Constraint :=
  ((src.constraints.zipIdx.flatMap fun p =>
    if p.1.ignore then [] else (p.1.columns.filter (· = column)).map fun _ => p).filter
  fun p => !mssqlDroppedConstraint e src dest p.1 p.2).map (·.1)

/-- The column pairs that are altered, /repo/ddl/sqlserver_migration.go:319-322 -/
def mssqlAlterColumns (e : DiffEnv) (src dest : Table) : List (Column × Column) :=
  changedColumns .sqlserver e.src.defaultCollation e.srcCache src dest

/-- /repo/ddl/sqlserver_migration.go:206-432 -/
def mssqlAlterTable (e : DiffEnv) (src dest : Table) : AlterTable where
  srcTable := src
  destTable := dest
  dropConstraints :=
    whenDrop e ((surplusConstraints e.destCache src dest).filter isKey) ++
    ((mssqlReplacedPkeyPos e src dest).bind (src.constraints[·]?)).toList ++
    (mssqlAlterColumns e src dest).flatMap fun p =>
      (mssqlConstraintDeps e src dest p.1.columnName).filter isKey
  dropIndexes :=
    whenDrop e (surplusIndexes e.destCache src dest) ++
    (mssqlAlterColumns e src dest).flatMap fun p => mssqlIndexDeps e src dest p.1.columnName
  dropColumns := whenDrop e (surplusColumns e.destCache src dest)
  addColumns := missingColumns e.srcCache src dest
  alterColumns := mssqlAlterColumns e src dest
  createIndexes :=
    missingIndexes e.srcCache src dest ++
    (mssqlAlterColumns e src dest).flatMap fun p => mssqlIndexDeps e src dest p.1.columnName
  addConstraints :=
    (missingConstraints e.srcCache src dest).filter isKey ++
    (mssqlAlterColumns e src dest).flatMap fun p =>
      (mssqlConstraintDeps e src dest p.1.columnName).filter isKey

/-- /repo/ddl/sqlserver_migration.go:284-291: identity cannot be added to an existing column -/
def mssqlIdentityWarnings (e : DiffEnv) (src dest : Table) : List (Column × Column) :=
  (commonColumns e.srcCache src dest).filter fun p =>
    p.1.columnIdentity = [] ∧ p.2.columnIdentity ≠ []

/-- /repo/ddl/sqlserver_migration.go:206-441; the text of the warning is shortened to the name of
the column. -/
def mssqlAlter (e : DiffEnv) (src dest : Table) : List Ev :=
  (whenDrop e ((surplusConstraints e.destCache src dest).filter isFkey)).map Ev.dropFkey ++
  (mssqlIdentityWarnings e src dest).map (fun p => Ev.warn p.2.columnName) ++
  ((missingConstraints e.srcCache src dest).filter isFkey).map Ev.addFkey ++
  ((mssqlAlterColumns e src dest).flatMap fun p =>
    (mssqlConstraintDeps e src dest p.1.columnName).filter isFkey).map Ev.redoFkey ++
  alterEvents (mssqlAlterTable e src dest)

/-- /repo/ddl/sqlserver_migration.go:57-445 `newSQLServerMigration`, before the foreign keys are
grouped -/
def mssqlEvents (src dest : Catalog) (dropObjects : Bool) : List Ev :=
  let e := diffEnv src dest dropObjects
  walk e (mssqlAlter e)

/-! ### Grouping the foreign keys -/

/-- the key of the groups -/
abbrev TablesId := Str × Str × Str × Str

/-- `getTablesID`: /repo/ddl/postgres_migration.go:68-83, sqlserver_migration.go:70-85 -/
def getTablesId (c : Constraint) : TablesId :=
  if c.referencesSchema < c.tableSchema ∨ c.referencesTable < c.tableName then
    (c.referencesSchema, c.referencesTable, c.tableSchema, c.tableName)
  else (c.tableSchema, c.tableName, c.referencesSchema, c.referencesTable)

/-- `m.dropFkeys` with `dropFkeysPos` and so on -/
structure FkGroups where
  groups : List (List Constraint) := []
  pos : PosMap TablesId := []

/-- /repo/ddl/postgres_migration.go:104-111 and the same code in the other places: add to the
group of the two tables, or start one -/
def FkGroups.add (g : FkGroups) (c : Constraint) : FkGroups :=
  match g.pos.get (getTablesId c) with
  | some n => { g with groups := g.groups.modify n (· ++ [c]) }
  | none =>
    { groups := g.groups ++ [[c]], pos := g.pos.set (getTablesId c) g.groups.length }

/-- the groups after adding the constraints in turn -/
def groupFkeys (cs : List Constraint) : List (List Constraint) := (cs.foldl FkGroups.add {}).groups

/-- The three lists of groups of the SQL Server migration. -/
structure MssqlFkeys where
  dropFkeys : FkGroups := {}
  addFastFkeys : FkGroups := {}
  addFkeys : FkGroups := {}

/-- One event; `none` is an index out of range.  /repo/ddl/sqlserver_migration.go:104-111,
142-149, 168-175, 193-200, 236-243, 354-361 and, for `redoFkey`, 416-428: the group is not
registered, and 426 appends to the group of `addFastFkeys` at the position of `addFkeys`. -/
def MssqlFkeys.step (m : MssqlFkeys) : Ev → Option MssqlFkeys
  | .dropFkey c => some { m with dropFkeys := m.dropFkeys.add c }
  | .addFastFkey c => some { m with addFastFkeys := m.addFastFkeys.add c }
  | .addFkey c => some { m with addFkeys := m.addFkeys.add c }
  | .redoFkey c =>
    let drop :=
      match m.dropFkeys.pos.get (getTablesId c) with
      | some n => { m.dropFkeys with groups := m.dropFkeys.groups.modify n (· ++ [c]) }
      | none => { m.dropFkeys with groups := m.dropFkeys.groups ++ [[c]] }
    match m.addFkeys.pos.get (getTablesId c) with
    | some n =>
      match m.addFastFkeys.groups[n]? with
      | none => none
      | some fast =>
        some { m with
          dropFkeys := drop
          addFkeys := { m.addFkeys with groups := m.addFkeys.groups.set n (fast ++ [c]) } }
    | none =>
      some { m with
        dropFkeys := drop
        addFkeys := { m.addFkeys with groups := m.addFkeys.groups ++ [[c]] } }
  | _ => some m

/-- all events -/
def mssqlFkeys (evs : List Ev) : Option MssqlFkeys := evs.foldlM MssqlFkeys.step {}

/-! ### SQLite -/

/-- /repo/ddl/ddl.go:1081-1083 `isVirtualTable` -/
def isVirtualTable (t : Table) : Bool := t.isVirtual || hasPrefix t.sql b!"CREATE VIRTUAL TABLE"

/-- the `nameType` of a constraint type, /repo/ddl/ddl.go:591-605 -/
def nameTypeOf (t : Str) : NameType :=
  if t = PRIMARY_KEY then .primaryKey
  else if t = FOREIGN_KEY then .foreignKey
  else if t = UNIQUE then .unique
  else if t = CHECK then .check
  else if t = EXCLUDE then .exclude
  else .other

/-- /repo/ddl/sqlite_migration.go:67-73 (and 84-90): the name given to a constraint -/
def sqliteNameConstraint (c : Constraint) : Constraint :=
  if c.constraintType = PRIMARY_KEY ∨ c.constraintType = UNIQUE ∨ c.constraintType = FOREIGN_KEY then
    { c with constraintName := generateName (nameTypeOf c.constraintType) c.tableName c.columns }
  else c

/-- /repo/ddl/sqlite_migration.go:57-91: all constraints of a catalog get generated names (the
Go code changes the catalog in place) -/
def sqliteNameConstraints (c : Catalog) : Catalog :=
  { c with schemas := c.schemas.map fun s =>
      { s with tables := s.tables.map fun t =>
          if isVirtualTable t then t
          else { t with constraints := t.constraints.map sqliteNameConstraint } } }

/-- /repo/ddl/sqlite_migration.go:125-218: the alterTable before lines 219-241 -/
def sqliteFullAlter (srcCache destCache : CatalogCache) (src dest : Table) : AlterTable where
  srcTable := src
  destTable := dest
  dropConstraints := surplusConstraints destCache src dest
  dropIndexes := surplusIndexes destCache src dest
  dropColumns := surplusColumns destCache src dest
  addColumns := missingColumns srcCache src dest
  alterColumns := changedColumns .sqlite [] srcCache src dest
  createIndexes := missingIndexes srcCache src dest
  addConstraints := missingConstraints srcCache src dest

/-- /repo/ddl/sqlite_migration.go:219-241 -/
def sqliteAlterEvents (dropObjects : Bool) (a : AlterTable) : List Ev :=
  if a.worthKeeping then
    if dropObjects then [Ev.alter a]
    else if !a.addColumns.isEmpty || !a.createIndexes.isEmpty then
      [Ev.alter { a with
        dropIndexes := [], dropConstraints := [], dropColumns := [], alterColumns := [],
        addConstraints := [] }]
    else []
  else []

/-- /repo/ddl/sqlite_migration.go:93-245: both catalogs have a first schema -/
def sqliteSchemaEvents (src dest : Catalog) (s d : Schema) (dropObjects : Bool) : List Ev :=
  let srcCache := newCatalogCache src
  let destCache := newCatalogCache dest
  (if dropObjects then
    s.tables.flatMap fun t =>
      if t.ignore || isVirtualTable t then []
      else if (destCache.getTable d t.tableName).toOption.isSome then []
      else [Ev.dropTable t]
   else []) ++
  d.tables.flatMap fun t =>
    if t.ignore || isVirtualTable t then []
    else
      match (srcCache.getTable s t.tableName).toOption with
      | none => [Ev.createTable t]
      | some srcTable =>
        sqliteAlterEvents dropObjects (sqliteFullAlter srcCache destCache srcTable t)

/-- /repo/ddl/sqlite_migration.go:28-245 `newSQLiteMigration` -/
def sqliteEvents (src dest : Catalog) (dropObjects : Bool) : List Ev :=
  match src.schemas, dest.schemas with
  | [], [] => []
  | s :: _, [] =>
    if dropObjects then (s.tables.filter fun t => !isVirtualTable t).map Ev.dropTable else []
  | [], d :: _ => (d.tables.filter fun t => !isVirtualTable t).map Ev.createTable
  | _ :: _, _ :: _ =>
    let src' := sqliteNameConstraints src
    let dest' := sqliteNameConstraints dest
    match src'.schemas, dest'.schemas with
    | s :: _, d :: _ => sqliteSchemaEvents src' dest' s d dropObjects
    | _, _ => []

/-! ### Dispatch -/

/-- /repo/ddl/generate_cmd.go:261-277 and automigrate_cmd.go:215-230: the migration of the
dialect; another dialect is an error. -/
def diffEvents (d : Dialect) (src dest : Catalog) (dropObjects : Bool) : List Ev :=
  match d with
  | .sqlite => sqliteEvents src dest dropObjects
  | .postgres => pgEvents src dest dropObjects
  | .mysql => mysqlEvents src dest dropObjects
  | .sqlserver => mssqlEvents src dest dropObjects
  | _ => []

/-! ### Where the comparison panics -/

/-- The pairs of columns that are compared in a walk (for MySQL, Postgres and SQL Server, whose
column types go through normalizeColumnType). -/
def comparedColumns (src dest : Catalog) : List (Column × Column) :=
  let e := diffEnv src dest false
  dest.schemas.flatMap fun d =>
    if d.ignore then []
    else
      match (e.srcCache.getSchema src d.schemaName).toOption with
      | none => []
      | some s =>
        d.tables.flatMap fun t =>
          if t.ignore then []
          else
            match (e.srcCache.getTable s t.tableName).toOption with
            | none => []
            | some st => commonColumns e.srcCache st t

/-- No comparison panics: every compared column type is accepted by normalizeColumnType. -/
def comparedOk (d : Dialect) (src dest : Catalog) : Bool :=
  (comparedColumns src dest).all fun p =>
    (normalizeColumnType d p.1.columnType).isSome && (normalizeColumnType d p.2.columnType).isSome

/-! ### The fields of the migration -/

namespace Ev

/-- `m.dropSchemas` -/
def dropSchema? : Ev → Option Schema
  | .dropSchema s => some s
  | _ => none
/-- `m.createSchemas` -/
def createSchema? : Ev → Option Str
  | .createSchema s => some s
  | _ => none
/-- `m.dropTables` -/
def dropTable? : Ev → Option Table
  | .dropTable t => some t
  | _ => none
/-- `m.createTables` -/
def createTable? : Ev → Option Table
  | .createTable t => some t
  | _ => none
/-- `m.dropFkeys`, before grouping -/
def dropFkey? : Ev → Option Constraint
  | .dropFkey c => some c
  | _ => none
/-- `m.addFastFkeys`, before grouping -/
def addFastFkey? : Ev → Option Constraint
  | .addFastFkey c => some c
  | _ => none
/-- `m.addFkeys`, before grouping -/
def addFkey? : Ev → Option Constraint
  | .addFkey c => some c
  | _ => none
/-- MySQL has one list for both -/
def anyAddFkey? : Ev → Option Constraint
  | .addFastFkey c => some c
  | .addFkey c => some c
  | _ => none
/-- `m.alterTables` -/
def alter? : Ev → Option AlterTable
  | .alter a => some a
  | _ => none

end Ev
end Sqddl
