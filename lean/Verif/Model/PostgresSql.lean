import Verif.Model.MigrationFiles

/-!
# The files of a Postgres migration

`(m *postgresMigration) sql`: /repo/ddl/postgres_migration.go:368-796.  The fields of `m` are the
events of `pgEvents`, with the foreign keys grouped by `groupFkeys`; buffers that come from the pool
are reset before use.
-/

namespace Sqddl.Postgres
open Go Sqddl.Files Sqddl.Render
open Sqddl.Wipe (qualified buffer)

/-- What `sql` needs to know: `m.versionNums`, `m.currentSchema`, `m.defaultCollation`
(/repo/ddl/postgres_migration.go:59-63), and which strings `strconv.ParseFloat` accepts. -/
structure Env where
  version : List Int := []
  cur : Str := []
  coll : Str := []
  isFloat : Str → Bool := fun _ => false

/-- /repo/ddl/ddl.go:617-640 `isLiteral`.  `strings.EqualFold` is a comparison of upper case ASCII. -/
def isLiteral (isFloat : Str → Bool) (s : Str) : Bool :=
  (2 ≤ s.length ∧ s.head? = some '\'' ∧ s.getLast? = some '\'') ||
  [b!"TRUE", b!"FALSE", b!"CURRENT_DATE", b!"CURRENT_TIME", b!"CURRENT_TIMESTAMP", b!"NULL"].contains
    (toUpper s) ||
  (parseInt64 s).isSome || isFloat s

/-- `tableName`: /repo/ddl/postgres_migration.go:377-381, 458-462, 729-733, 758-762 -/
def tableSql (e : Env) (s n : Str) : Str := qualified .postgres e.cur s n

/-- The two tables of a foreign key in a file name: /repo/ddl/postgres_migration.go:376-385,
728-737, 757-766 -/
def fkeyName (e : Env) (c : Constraint) : Str :=
  (if c.tableSchema ≠ [] ∧ c.tableSchema ≠ e.cur then noSpaces c.tableSchema ++ b!"_" else []) ++
  noSpaces c.tableName ++ b!"_" ++
  (if c.referencesSchema ≠ [] ∧ c.referencesSchema ≠ e.cur then noSpaces c.referencesSchema ++ b!"_"
   else []) ++
  noSpaces c.referencesTable

/-- `fk := *fkeys[0]`, /repo/ddl/postgres_migration.go:375, 727, 756; a group is never empty. -/
def firstFkey (g : List Constraint) : Constraint := g.headD {}

/-- /repo/ddl/postgres_migration.go:391-397; the table is that of the first foreign key of the
group. -/
def dropFkeyStmts (e : Env) (g : List Constraint) : List Str :=
  g.map fun c => b!"ALTER TABLE " ++
    tableSql e (firstFkey g).tableSchema (firstFkey g).tableName ++
    b!" DROP CONSTRAINT IF EXISTS " ++ quoteIdentifier .postgres c.constraintName ++ b!";\n"

/-- DROP FOREIGN KEY: /repo/ddl/postgres_migration.go:373-398 -/
def dropFkeySteps (e : Env) (evs : List Ev) : List (List File) :=
  (groupFkeys (evs.filterMap Ev.dropFkey?)).map fun g =>
    [(b!"_drop_" ++ fkeyName e (firstFkey g) ++ b!"_fkeys.tx.sql", buffer (dropFkeyStmts e g))]

/-- /repo/ddl/postgres_migration.go:412 -/
def dropSchemaCascade (name : Str) : Str :=
  b!"DROP SCHEMA IF EXISTS " ++ quoteIdentifier .postgres name ++ b!" CASCADE;\n"

/-- DROP SCHEMA and CREATE SCHEMA: /repo/ddl/postgres_migration.go:401-420 -/
def schemaSteps (evs : List Ev) : List (List File) :=
  let dropped := (evs.filterMap Ev.dropSchema?).map fun s => s.schemaName
  let created := evs.filterMap Ev.createSchema?
  if dropped.isEmpty && created.isEmpty then []
  else
    [[(b!"_schemas.sql",
        buffer (dropped.map dropSchemaCascade ++ created.map (createSchema .postgres)))]]

/-- CREATE TABLE and the indexes of the table: /repo/ddl/postgres_migration.go:440-450 -/
def createTableStmts (e : Env) (t : Table) : List Str :=
  createTable .postgres e.cur e.coll t true ::
    t.indexes.map fun x => createIndex .postgres e.cur x false

/-- DROP TABLE and CREATE TABLE: /repo/ddl/postgres_migration.go:423-452 -/
def tableSteps (e : Env) (evs : List Ev) : List (List File) :=
  let dropped := evs.filterMap Ev.dropTable?
  let created := evs.filterMap Ev.createTable?
  if dropped.isEmpty && created.isEmpty then []
  else
    [[(b!"_tables.sql",
        buffer (dropped.map (dropTable .postgres e.cur) ++
          created.flatMap (createTableStmts e)))]]

/-- `name`: /repo/ddl/postgres_migration.go:457-462 -/
def alterName (e : Env) (t : Table) : Str :=
  (if t.tableSchema ≠ [] ∧ t.tableSchema ≠ e.cur then noSpaces t.tableSchema ++ b!"_" else []) ++
  noSpaces t.tableName

/-- `"ALTER TABLE " + tableName`: /repo/ddl/postgres_migration.go:485 and the like -/
def alterPrefix (e : Env) (a : AlterTable) : Str :=
  b!"ALTER TABLE " ++ tableSql e a.destTable.tableSchema a.destTable.tableName

/-- DROP INDEX: /repo/ddl/postgres_migration.go:470-477, 676-683, 706-713 -/
def dropIndex (e : Env) (x : Index) : Str :=
  b!"DROP INDEX IF EXISTS " ++ qualified .postgres e.cur x.tableSchema x.indexName ++ b!";\n"

/-- The change of the type, and whether it is needed: /repo/ddl/postgres_migration.go:514-578.
`columnName` is not quoted (513). -/
def alterTypeStmts (e : Env) (pre : Str) (s t : Column) : List Str :=
  if normType .postgres s.columnType ≠ normType .postgres t.columnType then
    [pre ++ b!" ALTER COLUMN " ++ t.columnName ++ b!" TYPE " ++ t.columnType ++
      opt (decide (t.collationName ≠ [] ∧ t.collationName ≠ e.coll))
        (b!" COLLATE \"" ++ escapeQuote '"' t.collationName ++ b!"\"") ++ b!";\n"]
  else if collationOr e.coll s.collationName ≠ collationOr e.coll t.collationName then
    [pre ++ b!" ALTER COLUMN " ++ t.columnName ++ b!" TYPE " ++ t.columnType ++
      b!" COLLATE \"" ++ escapeQuote '"' t.collationName ++ b!"\"" ++ b!";\n"]
  else []

/-- /repo/ddl/postgres_migration.go:579-592 -/
def alterDefaultStmts (e : Env) (pre : Str) (s t : Column) : List Str :=
  let sd := normalizeColumnDefault .postgres s.columnDefault
  let td := normalizeColumnDefault .postgres t.columnDefault
  if sd ≠ [] ∧ td = [] then
    [pre ++ b!" ALTER COLUMN " ++ t.columnName ++ b!" DROP DEFAULT;\n"]
  else if (sd = [] ∧ td ≠ []) ∨
      (isLiteral e.isFloat sd = true ∧ isLiteral e.isFloat td = true ∧ sd ≠ td) then
    [pre ++ b!" ALTER COLUMN " ++ t.columnName ++ b!" SET DEFAULT " ++ td ++ b!";\n"]
  else []

/-- The name of the CHECK constraint that stands for NOT NULL for a while:
/repo/ddl/postgres_migration.go:607, 655 -/
def notNullCheck (c : Column) : Str :=
  quoteIdentifier .postgres (c.tableName ++ b!"_" ++ c.columnName ++ b!"_not_null_check")

/-- /repo/ddl/postgres_migration.go:593-610 -/
def alterNotNullStmts (e : Env) (pre : Str) (s t : Column) : List Str :=
  if s.isNotNull && !t.isNotNull then
    [pre ++ b!" ALTER COLUMN " ++ t.columnName ++ b!" DROP NOT NULL;\n"]
  else if !s.isNotNull && t.isNotNull then
    if lowerThan e.version [12] then
      [pre ++ b!" ALTER COLUMN " ++ t.columnName ++ b!" SET NOT NULL;\n"]
    else
      [pre ++ b!" ADD CONSTRAINT " ++ notNullCheck t ++ b!" CHECK (" ++ t.columnName ++
        b!" IS NOT NULL) NOT VALID;\n"]
  else []

/-- /repo/ddl/postgres_migration.go:611-622 -/
def alterIdentityStmts (pre : Str) (s t : Column) : List Str :=
  if s.columnIdentity ≠ [] ∧ t.columnIdentity = [] then
    [pre ++ b!" ALTER COLUMN " ++ t.columnName ++ b!" DROP IDENTITY;\n"]
  else if s.columnIdentity = [] ∧ t.columnIdentity ≠ [] then
    [pre ++ b!" ALTER COLUMN " ++ t.columnName ++ b!" ADD " ++ t.columnIdentity ++ b!";\n"]
  else []

/-- ALTER COLUMN: /repo/ddl/postgres_migration.go:511-623 -/
def alterColumnStmts (e : Env) (pre : Str) (p : Column × Column) : List Str :=
  alterTypeStmts e pre p.1 p.2 ++ alterDefaultStmts e pre p.1 p.2 ++
  alterNotNullStmts e pre p.1 p.2 ++ alterIdentityStmts pre p.1 p.2

/-- ALTER CONSTRAINT: /repo/ddl/postgres_migration.go:625-641 -/
def alterConstraint (pre : Str) (c : Constraint) : Str :=
  pre ++ b!" ALTER CONSTRAINT " ++ quoteIdentifier .postgres c.constraintName ++
  (if c.isDeferrable then b!" DEFERRABLE" else b!" NOT DEFERRABLE") ++
  opt c.isInitiallyDeferred b!" INITIALLY DEFERRED" ++ b!";\n"

/-- The first file of an ALTER TABLE: /repo/ddl/postgres_migration.go:468-641 -/
def alterStmts (e : Env) (a : AlterTable) : List Str :=
  a.dropIndexes.map (dropIndex e) ++
  a.dropConstraints.map (fun c => alterPrefix e a ++ b!" DROP CONSTRAINT IF EXISTS " ++
    quoteIdentifier .postgres c.constraintName ++ b!";\n") ++
  a.dropColumns.map (fun c => alterPrefix e a ++ b!" DROP COLUMN IF EXISTS " ++
    quoteIdentifier .postgres c.columnName ++ b!";\n") ++
  a.addColumns.map (fun c => alterPrefix e a ++ b!" ADD COLUMN " ++
    columnDef .postgres e.coll c false ++ b!";\n") ++
  a.alterColumns.flatMap (alterColumnStmts e (alterPrefix e a)) ++
  a.alterConstraints.map (fun p => alterConstraint (alterPrefix e a) p.2)

/-- VALIDATE NOT NULL CHECK: /repo/ddl/postgres_migration.go:651-659; the three statements are not
separated by an empty line. -/
def validateNotNull (e : Env) (a : AlterTable) (c : Column) : Str :=
  alterPrefix e a ++ b!" VALIDATE CONSTRAINT " ++ notNullCheck c ++ b!";\n" ++
  (alterPrefix e a ++ b!" ALTER COLUMN " ++ quoteIdentifier .postgres c.columnName ++
    b!" SET NOT NULL;\n") ++
  (alterPrefix e a ++ b!" DROP CONSTRAINT " ++ notNullCheck c ++ b!";\n")

/-- The index that a key constraint is made of: /repo/ddl/postgres_migration.go:696-702 -/
def keyIndex (c : Constraint) : Index :=
  { tableSchema := c.tableSchema, tableName := c.tableName, indexName := c.constraintName,
    isUnique := true, columns := c.columns }

/-- CREATE INDEX CONCURRENTLY and its undo file: /repo/ddl/postgres_migration.go:664-684, 688-713 -/
def createIndexStep (e : Env) (x : Index) : List File :=
  [(b!"_create_" ++ noSpaces x.indexName ++ b!".txoff.sql", createIndex .postgres e.cur x true),
   (b!"_create_" ++ noSpaces x.indexName ++ b!".undo.sql", dropIndex e x)]

/-- ADD CONSTRAINT USING INDEX: /repo/ddl/postgres_migration.go:714-720 -/
def addConstraintUsing (e : Env) (a : AlterTable) (c : Constraint) : Str :=
  alterPrefix e a ++ b!" ADD CONSTRAINT " ++ quoteIdentifier .postgres c.constraintName ++ b!" " ++
  c.constraintType ++ b!" USING INDEX " ++ quoteIdentifier .postgres c.constraintName ++ b!";\n"

/-- The files of one ALTER TABLE: /repo/ddl/postgres_migration.go:455-722 -/
def alterTableSteps (e : Env) (a : AlterTable) : List (List File) :=
  [[(b!"_alter_" ++ alterName e a.destTable ++ b!".tx.sql", buffer (alterStmts e a))]] ++
  (if a.validateNotNull.isEmpty then []
   else [[(b!"_validate_" ++ alterName e a.destTable ++ b!"_not_null.tx.sql",
      buffer (a.validateNotNull.map (validateNotNull e a)))]]) ++
  a.createIndexes.map (createIndexStep e) ++
  a.addConstraints.flatMap fun c =>
    [createIndexStep e (keyIndex c),
     [(b!"_add_" ++ noSpaces c.constraintName ++ b!".tx.sql", addConstraintUsing e a c)]]

/-- ALTER TABLE: /repo/ddl/postgres_migration.go:454-722 -/
def alterSteps (e : Env) (evs : List Ev) : List (List File) :=
  (evs.filterMap Ev.alter?).flatMap (alterTableSteps e)

/-- ADD FOREIGN KEY, with or without NOT VALID: /repo/ddl/postgres_migration.go:743-750, 772-779; the
table is that of the first foreign key of the group. -/
def addFkeyStmts (e : Env) (suffix : Str) (g : List Constraint) : List Str :=
  g.map fun c => b!"ALTER TABLE " ++
    tableSql e (firstFkey g).tableSchema (firstFkey g).tableName ++ b!" ADD " ++
    constraintDef .postgres e.cur c ++ suffix

/-- VALIDATE CONSTRAINT: /repo/ddl/postgres_migration.go:786-792 -/
def validateFkeyStmts (e : Env) (g : List Constraint) : List Str :=
  g.map fun c => b!"ALTER TABLE " ++
    tableSql e (firstFkey g).tableSchema (firstFkey g).tableName ++
    b!" VALIDATE CONSTRAINT " ++ quoteIdentifier .postgres c.constraintName ++ b!";\n"

/-- Foreign keys of new tables: /repo/ddl/postgres_migration.go:724-751 -/
def addFastFkeySteps (e : Env) (evs : List Ev) : List (List File) :=
  (groupFkeys (evs.filterMap Ev.addFastFkey?)).map fun g =>
    [(b!"_add_" ++ fkeyName e (firstFkey g) ++ b!"_fkeys.tx.sql",
      buffer (addFkeyStmts e b!";\n" g))]

/-- Foreign keys of existing tables: /repo/ddl/postgres_migration.go:753-793 -/
def addFkeySteps (e : Env) (evs : List Ev) : List (List File) :=
  (groupFkeys (evs.filterMap Ev.addFkey?)).flatMap fun g =>
    [[(b!"_add_" ++ fkeyName e (firstFkey g) ++ b!"_fkeys.tx.sql",
        buffer (addFkeyStmts e b!" NOT VALID;\n" g))],
     [(b!"_validate_" ++ fkeyName e (firstFkey g) ++ b!"_fkeys.tx.sql",
        buffer (validateFkeyStmts e g))]]

/-- /repo/ddl/postgres_migration.go:368-796: the files in the order in which they are returned -/
def sqlSteps (e : Env) (evs : List Ev) : List (List File) :=
  dropFkeySteps e evs ++ schemaSteps evs ++ tableSteps e evs ++ alterSteps e evs ++
  addFastFkeySteps e evs ++ addFkeySteps e evs

/-! ## Warnings -/

/-- ADD COLUMN: /repo/ddl/postgres_migration.go:500-505.  The message about an identity has the
identity in the place of the column. -/
def addWarning (e : Env) (c : Column) : Option (Str × Unsafe) :=
  if c.columnDefault ≠ [] ∧ lowerThan e.version [11] = true then
    some (quoteIdentifier .postgres c.columnName, .addDefault)
  else if c.columnIdentity ≠ [] ∧ lowerThan e.version [11] = true then
    some (c.columnIdentity, .addIdentity)
  else none

/-- `if b { warnings = append(…) }`, /repo/ddl/postgres_migration.go:531-550 -/
def warnIf (b : Bool) (u : Unsafe) : List Unsafe := if b then [u] else []

/-- ALTER TYPE: /repo/ddl/postgres_migration.go:514-553 -/
def typeWarnings (s t : Column) : List Unsafe :=
  let x := normType .postgres s.columnType
  let y := normType .postgres t.columnType
  if x = y then []
  else if (x.1 = b!"CIDR" ∧ y.1 = b!"INET") ∨ (x.1 = b!"VARCHAR" ∧ y.1 = b!"TEXT") then []
  else if x.1 = b!"TEXT" ∧ y.1 = b!"VARCHAR" then warnIf (decide (y.2.1 ≠ [])) .type
  else if x.1 = b!"VARCHAR" ∧ y.1 = b!"VARCHAR" then
    warnIf (decide (atoi0 x.2.1 > 0 ∧ atoi0 y.2.1 > 0 ∧ atoi0 y.2.1 < atoi0 x.2.1)) .limit
  else if x.1 = b!"NUMERIC" ∧ y.1 = b!"NUMERIC" then
    warnIf (decide (atoi0 x.2.2 ≠ atoi0 y.2.2 ∧ atoi0 y.2.2 ≠ 0)) .scale ++
    warnIf (decide (atoi0 x.2.1 > 0 ∧ atoi0 y.2.1 > 0 ∧ atoi0 y.2.1 < atoi0 x.2.1)) .precision
  else [.type]

/-- SET NOT NULL: /repo/ddl/postgres_migration.go:603-604 -/
def notNullWarnings (e : Env) (s t : Column) : List Unsafe :=
  warnIf (!s.isNotNull && t.isNotNull && lowerThan e.version [12]) .notNull

/-- `warnings`: /repo/ddl/postgres_migration.go:500-604 -/
def sqlWarnings (e : Env) (evs : List Ev) : List Warning :=
  (evs.filterMap Ev.alter?).flatMap fun a =>
    (a.addColumns.filterMap fun c => (addWarning e c).map fun w =>
      ⟨tableSql e a.destTable.tableSchema a.destTable.tableName, w.1, w.2⟩) ++
    a.alterColumns.flatMap fun p => (typeWarnings p.1 p.2 ++ notNullWarnings e p.1 p.2).map fun w =>
      ⟨tableSql e a.destTable.tableSchema a.destTable.tableName, p.2.columnName, w⟩

/-- /repo/ddl/postgres_migration.go:57-796: the migration of two catalogs, files and warnings -/
def migration (isFloat : Str → Bool) (pre : Str) (src dest : Catalog) (dropObjects : Bool) :
    List File × List Warning :=
  let evs := pgEvents src dest dropObjects
  let e : Env := ⟨src.versionNums, src.currentSchema, src.defaultCollation, isFloat⟩
  (numbered pre (sqlSteps e evs), sqlWarnings e evs)

end Sqddl.Postgres
