import Verif.Model.Catalog
import Verif.Model.Quote
import Verif.Model.Dsn
import Verif.Model.PqArray
import Verif.Model.DumpCsv
import Verif.Model.PostgresSql

/-!
# Reading the rows of the introspection queries

/repo/ddl/database_introspector.go:269-1494, 1640-1668: what is made of the rows that the queries
give.  The queries themselves are not modelled: their rows come from the database, an oracle.  A
row is given as a record; `scan` takes the fields that `rows.Scan` sets and leaves the others at
their zero values.  The JSON arrays of Postgres are given as lists.
-/

namespace Go

/-- `strings.Split(s, c)` for a separator of one byte -/
def split (c : Char) : Str → List Str
  | [] => [[]]
  | x :: s =>
    if x = c then [] :: split c s
    else match split c s with
      | [] => [[x]]
      | y :: r => (x :: y) :: r

/-- `strings.ReplaceAll(s, ab, n)` for a pattern of two bytes and a replacement of one -/
def replacePair (a b n : Char) : Str → Str
  | x :: y :: s => if x = a ∧ y = b then n :: replacePair a b n s else x :: replacePair a b n (y :: s)
  | s => s

end Go

namespace Sqddl.Introspect
open Go
open Sqddl.Postgres (isLiteral)

/-- Returning, returning an error, or panicking. -/
inductive Res (α : Type) where
  | panic
  | err
  | ok (a : α)
deriving DecidableEq

/-- `x, err := …; if err != nil { return err }` -/
def Res.bind {α β : Type} : Res α → (α → Res β) → Res β
  | .panic, _ => .panic
  | .err, _ => .err
  | .ok a, f => f a

/-- `none` stands for a panic. -/
def Res.of {α : Type} : Option α → Res α
  | none => .panic
  | some a => .ok a

/-- The rows that a query gives: `none` is a row that cannot be scanned (or whose JSON cannot be
decoded); `failed` is an error that ends the rows, seen in `rows.Err` or `rows.Close`. -/
structure Answer (α : Type) where
  rows : List (Option α) := []
  failed : Bool := false

/-- The loop `for rows.Next()` of every function below: the first row that cannot be scanned ends
it. -/
def readRows {α β : Type} (scan : α → Option β) : List (Option α) → Res (List β)
  | [] => .ok []
  | none :: _ => .err
  | some r :: rest =>
    (Res.of (scan r)).bind fun x => (readRows scan rest).bind fun xs => .ok (x :: xs)

/-- The query, its rows and `closeRows` (/repo/ddl/database_introspector.go:1530-1540); `none` is an
error of the query. -/
def query {α β : Type} (scan : α → Option β) : Option (Answer α) → Res (List β)
  | none => .err
  | some a => (readRows scan a.rows).bind fun xs => if a.failed then .err else .ok xs

/-- The dialects that the functions know; with any other they return an error. -/
def supported : Dialect → Bool
  | .sqlite | .postgres | .mysql | .sqlserver => true
  | _ => false

/-! ## Versions and names -/

/-- /repo/ddl/database_introspector.go:312-321: the part of the version that has the numbers -/
def versionText (d : Dialect) (v : Str) : Str :=
  match d with
  | .postgres => v.takeWhile (· ≠ ' ')
  | .mysql => if contains b!"MariaDB" v then v.takeWhile (· ≠ '-') else v
  | _ => v

/-- /repo/ddl/database_introspector.go:307-332 `GetVersionNums`; `none` is an error of `GetVersion`
(269-304), which is the empty text if the query has no row. -/
def getVersionNums (d : Dialect) (version : Option Str) : Res (List Int) :=
  if supported d then
    match version with
    | none => .err
    | some v =>
      match (split '.' (versionText d v)).mapM parseInt64 with
      | none => .err
      | some ns => .ok ns
  else .err

/-- /repo/ddl/database_introspector.go:335-367 `GetDatabaseName`, 370-402 `GetCurrentSchema`, 405-438
`GetDefaultCollation`: `none` is an error, the empty text no row. -/
def getName (d : Dialect) (answer : Option Str) : Res Str :=
  match d with
  | .sqlite => .ok []
  | _ => if supported d then answer.elim .err .ok else .err

/-! ## Columns -/

/-- /repo/ddl/database_introspector.go:479-498 -/
def sqliteColumn (isFloat : Str → Bool) (r : Column) : Column :=
  let gen := hasSuffix r.columnType b!" GENERATED ALWAYS"
  { tableName := r.tableName
    columnName := r.columnName
    columnType := if gen then trimSuffix r.columnType b!" GENERATED ALWAYS" else r.columnType
    isNotNull := r.isNotNull
    isGenerated := r.isGenerated || gen
    columnDefault :=
      if r.columnDefault ≠ [] ∧ !isLiteral isFloat r.columnDefault then wrapBrackets r.columnDefault
      else r.columnDefault }

/-- /repo/ddl/database_introspector.go:546-554: the type of a Postgres column; the type written by
lines 526-542 is not used. -/
def pgColumnType (isEnum : Bool) (ty normalized arg1 arg2 : Str) : Str :=
  if isEnum then toLower ty
  else if arg1 ≠ [] ∧ arg2 ≠ [] then toLower normalized ++ b!"(" ++ arg1 ++ b!"," ++ arg2 ++ b!")"
  else if arg1 ≠ [] then toLower normalized ++ b!"(" ++ arg1 ++ b!")"
  else toLower normalized

/-- /repo/ddl/database_introspector.go:526-542, for the types that are written before 546-554 runs;
it only matters for enums. -/
def pgEarlyType (ty normalized arg1 : Str) : Str :=
  if normalized = b!"TIMESTAMPTZ" then
    if arg1 ≠ [] then b!"timestamptz(" ++ arg1 ++ b!")" else b!"timestamptz"
  else if normalized = b!"FLOAT" ∧ arg1 ≠ [] then b!"float(" ++ arg1 ++ b!")"
  else ty

/-- /repo/ddl/database_introspector.go:521-545: length, precision and scale of a Postgres column;
the length is never scanned. -/
def pgSizes (r : Column) (normalized arg1 arg2 : Str) : Str × Str × Str :=
  if normalized = b!"VARCHAR" ∨ normalized = b!"CHAR" then
    (arg1, r.numericPrecision, r.numericScale)
  else if normalized = b!"TIMESTAMPTZ" ∨ normalized = b!"FLOAT" then
    ([], r.numericPrecision, r.numericScale)
  else if normalized = b!"NUMERIC" then
    ([], if r.numericPrecision = [] then arg1 else r.numericPrecision,
      if r.numericScale = [] then arg2 else r.numericScale)
  else ([], [], [])

/-- /repo/ddl/database_introspector.go:500-554 -/
def postgresColumn (r : Column) : Option Column :=
  (normalizeColumnType .postgres r.columnType).map fun (normalized, arg1, arg2) =>
    let sizes := pgSizes r normalized arg1 arg2
    { tableSchema := r.tableSchema
      tableName := r.tableName
      columnName := r.columnName
      columnType :=
        pgColumnType r.isEnum (pgEarlyType r.columnType normalized arg1) normalized arg1 arg2
      characterLength := sizes.1
      numericPrecision := sizes.2.1
      numericScale := sizes.2.2
      isEnum := r.isEnum
      domainName := r.domainName
      columnIdentity := r.columnIdentity
      isNotNull := r.isNotNull
      generatedExpr := r.generatedExpr
      generatedExprStored := r.generatedExprStored
      collationName := r.collationName
      columnDefault := r.columnDefault
      comment := r.comment }

/-- /repo/ddl/database_introspector.go:574-590: length, precision and scale of a MySQL column -/
def mysqlSizes (r : Column) (normalized arg1 arg2 : Str) : Str × Str × Str :=
  if normalized = b!"VARCHAR" ∨ normalized = b!"CHAR" then
    (if r.characterLength = [] then arg1 else r.characterLength, [], [])
  else if normalized = b!"NUMERIC" then
    ([], if r.numericPrecision = [] then arg1 else r.numericPrecision,
      if r.numericScale = [] then arg2 else r.numericScale)
  else ([], [], [])

/-- /repo/ddl/database_introspector.go:597-599: the default of a MySQL column -/
def mysqlDefault (isFloat : Str → Bool) (s : Str) : Str :=
  if s ≠ [] ∧ !isLiteral isFloat s ∧ !wrappedInBrackets s then
    b!"'" ++ escapeQuote '\'' s ++ b!"'"
  else s

/-- /repo/ddl/database_introspector.go:556-599; the error of `rows.Scan` is looked at after the
type (591), which makes no difference unless the type of a row that cannot be scanned panics. -/
def mysqlColumn (isFloat : Str → Bool) (r : Column) : Option Column :=
  (normalizeColumnType .mysql r.columnType).map fun (normalized, arg1, arg2) =>
    let sizes := mysqlSizes r normalized arg1 arg2
    { tableSchema := r.tableSchema
      tableName := r.tableName
      columnName := r.columnName
      columnType := r.columnType
      characterLength := sizes.1
      numericPrecision := sizes.2.1
      numericScale := sizes.2.2
      isAutoincrement := r.isAutoincrement
      isNotNull := r.isNotNull
      onUpdateCurrentTimestamp := r.onUpdateCurrentTimestamp
      generatedExpr := replacePair '\\' '\'' '\'' r.generatedExpr
      generatedExprStored := r.generatedExprStored
      collationName := r.collationName
      columnDefault := mysqlDefault isFloat r.columnDefault
      comment := r.comment }

/-- /repo/ddl/database_introspector.go:622-624 -/
def sqlserverLength (s : Str) : Str := if s = b!"-1" then b!"MAX" else s

/-- /repo/ddl/database_introspector.go:620-638: type, length, precision and scale of a SQL Server
column -/
def sqlserverSizes (r : Column) (normalized : Str) : Str × Str × Str × Str :=
  if normalized ∈ [b!"VARBINARY", b!"BINARY", b!"NVARCHAR", b!"VARCHAR", b!"CHAR"] then
    (r.columnType ++ b!"(" ++ sqlserverLength r.characterLength ++ b!")",
      sqlserverLength r.characterLength, [], [])
  else if normalized = b!"NUMERIC" then
    (if r.numericPrecision ≠ [] ∧ r.numericScale ≠ [] then
        r.columnType ++ b!"(" ++ r.numericPrecision ++ b!"," ++ r.numericScale ++ b!")"
      else if r.numericPrecision ≠ [] then r.columnType ++ b!"(" ++ r.numericPrecision ++ b!")"
      else r.columnType,
      [], r.numericPrecision, r.numericScale)
  else if normalized = b!"FLOAT" then (r.columnType, [], r.numericPrecision, [])
  else (r.columnType, [], [], [])

/-- /repo/ddl/database_introspector.go:639-642: the default of a SQL Server column -/
def sqlserverDefault (isFloat : Str → Bool) (s : Str) : Str :=
  let u := unwrapBrackets (unwrapBrackets s)
  if !isLiteral isFloat u then wrapBrackets u else u

/-- /repo/ddl/database_introspector.go:601-642 -/
def sqlserverColumn (isFloat : Str → Bool) (r : Column) : Option Column :=
  (normalizeColumnType .sqlserver r.columnType).map fun (normalized, _, _) =>
    let sizes := sqlserverSizes r normalized
    { tableSchema := r.tableSchema
      tableName := r.tableName
      columnName := r.columnName
      columnType := sizes.1
      characterLength := sizes.2.1
      numericPrecision := sizes.2.2.1
      numericScale := sizes.2.2.2
      columnIdentity := r.columnIdentity
      isNotNull := r.isNotNull
      generatedExpr := r.generatedExpr
      generatedExprStored := r.generatedExprStored
      collationName := r.collationName
      columnDefault := sqlserverDefault isFloat r.columnDefault }

/-- /repo/ddl/database_introspector.go:476-643: a row of the columns -/
def scanColumn (isFloat : Str → Bool) (d : Dialect) (r : Column) : Option Column :=
  match d with
  | .sqlite => some (sqliteColumn isFloat r)
  | .postgres => postgresColumn r
  | .mysql => mysqlColumn isFloat r
  | .sqlserver => sqlserverColumn isFloat r
  | _ => some {}

/-! ## Constraints -/

/-- A row of the constraints: the fields that are scanned as they are (on Postgres with the decoded
lists), and the texts of the columns. -/
structure ConstraintRow where
  row : Constraint := {}
  columns : Str := []
  referencesColumns : Str := []

/-- /repo/ddl/database_introspector.go:706-711, 769-774, 796-801, 1013-1015: a list of names from a
text -/
def nameList (s : Str) : List Str := if s = [] then [] else split ',' s

/-- /repo/ddl/database_introspector.go:818-823 -/
def ruleOf (s : Str) : Str := if s = NO_ACTION then [] else s

/-- `strings.ReplaceAll(s, "_", " ")`: /repo/ddl/database_introspector.go:802-803 -/
def spaced (s : Str) : Str := s.map fun c => if c = '_' then ' ' else c

/-- /repo/ddl/database_introspector.go:690-823: a row of the constraints -/
def scanConstraint (d : Dialect) (r : ConstraintRow) : Constraint :=
  match d with
  | .sqlite =>
    { tableName := r.row.tableName
      constraintType := r.row.constraintType
      columns := nameList r.columns
      referencesTable := r.row.referencesTable
      referencesColumns := nameList r.referencesColumns
      updateRule := ruleOf r.row.updateRule
      deleteRule := ruleOf r.row.deleteRule }
  | .postgres =>
    { tableSchema := r.row.tableSchema
      tableName := r.row.tableName
      constraintName := r.row.constraintName
      constraintType := r.row.constraintType
      columns := r.row.columns
      referencesSchema := r.row.referencesSchema
      referencesTable := r.row.referencesTable
      referencesColumns := r.row.referencesColumns
      updateRule := ruleOf r.row.updateRule
      deleteRule := ruleOf r.row.deleteRule
      matchOption := r.row.matchOption
      checkExpr := unwrapBrackets (trimPrefix r.row.checkExpr b!"CHECK ")
      exclusionOperators := r.row.exclusionOperators
      exclusionIndexType := r.row.exclusionIndexType
      exclusionPredicate := r.row.exclusionPredicate
      isDeferrable := r.row.isDeferrable
      isInitiallyDeferred := r.row.isInitiallyDeferred
      isNotValid := r.row.isNotValid }
  | .mysql =>
    { tableSchema := r.row.tableSchema
      tableName := r.row.tableName
      constraintName := r.row.constraintName
      constraintType := r.row.constraintType
      columns := nameList r.columns
      referencesSchema := r.row.referencesSchema
      referencesTable := r.row.referencesTable
      referencesColumns := nameList r.referencesColumns
      updateRule := ruleOf r.row.updateRule
      deleteRule := ruleOf r.row.deleteRule
      matchOption := r.row.matchOption
      checkExpr := unwrapBrackets r.row.checkExpr }
  | .sqlserver =>
    { tableSchema := r.row.tableSchema
      tableName := r.row.tableName
      constraintName := r.row.constraintName
      constraintType := r.row.constraintType
      columns := nameList r.columns
      referencesSchema := r.row.referencesSchema
      referencesTable := r.row.referencesTable
      referencesColumns := nameList r.referencesColumns
      updateRule := ruleOf (spaced r.row.updateRule)
      deleteRule := ruleOf (spaced r.row.deleteRule)
      checkExpr := unwrapBrackets r.row.checkExpr
      isClustered := r.row.isClustered
      isNotValid := r.row.isNotValid }
  | _ => {}

/-! ## Domains, enums, extensions -/

/-- /repo/ddl/database_introspector.go:850-885: a row of the domains -/
def scanDomain (r : Domain) : Domain :=
  { domainSchema := r.domainSchema
    domainName := r.domainName
    underlyingType := r.underlyingType
    collationName := r.collationName
    isNotNull := r.isNotNull
    columnDefault := r.columnDefault
    checkNames := r.checkNames
    checkExprs := r.checkExprs.map fun e => trimPrefix e b!"CHECK "
    comment := r.comment }

/-- /repo/ddl/database_introspector.go:912-921: a row of the enums -/
def scanEnum (r : Enum) : Enum :=
  { enumSchema := r.enumSchema, enumName := r.enumName, enumLabels := r.enumLabels
    comment := r.comment }

/-! ## Indexes -/

/-- A row of the indexes: the fields that are scanned as they are (on Postgres with the decoded
lists), the texts of the lists, and the number of key columns on Postgres. -/
structure IndexRow where
  row : Index := {}
  columns : Str := []
  descending : Str := []
  included : Str := []
  numKeyColumns : Nat := 0

/-- `b, _ := strconv.ParseBool(str)` -/
def boolOf (s : Str) : Bool := (DumpCsv.parseBool s).getD false

/-- /repo/ddl/database_introspector.go:1060-1065, 1084-1089, 1102-1106: a list of booleans from a
text -/
def boolList (s : Str) : List Bool := if s = [] then [] else (split ',' s).map boolOf

/-- /repo/ddl/database_introspector.go:1094-1100: the columns from the `i`th on, divided into key
columns and included columns; `include[i]` is read for `i = len(include)`, too, a panic. -/
def divide (inc : List Bool) : Nat → List Str → Option (List Str × List Str)
  | _, [] => some ([], [])
  | i, s :: r =>
    if i ≤ inc.length then
      inc[i]?.bind fun b => (divide inc (i + 1) r).map fun (keys, rest) =>
        if b then (keys, s :: rest) else (s :: keys, rest)
    else (divide inc (i + 1) r).map fun (keys, rest) => (s :: keys, rest)

/-- /repo/ddl/database_introspector.go:1102-1108: `index.Descending[len(index.IncludeColumns):]` -/
def dropFirst (xs : List Bool) (n : Nat) : Option (List Bool) :=
  if n ≤ xs.length then some (xs.drop n) else none

/-- `strings.ReplaceAll(s, "\r\n", "\n")` -/
def unixLines (s : Str) : Str := replacePair '\r' '\n' '\n' s

/-- /repo/ddl/database_introspector.go:999-1125: a row of the indexes; `none` is a panic. -/
def scanIndex (d : Dialect) (r : IndexRow) : Option Index :=
  match d with
  | .sqlite => some
      { tableName := r.row.tableName
        indexName := r.row.indexName
        isUnique := r.row.isUnique
        columns := nameList r.columns
        sql := unixLines r.row.sql }
  | .postgres =>
    if r.numKeyColumns ≤ r.row.columns.length then some
      { tableSchema := r.row.tableSchema
        tableName := r.row.tableName
        indexName := r.row.indexName
        indexType := r.row.indexType
        isViewIndex := r.row.isViewIndex
        isUnique := r.row.isUnique
        columns := r.row.columns.take r.numKeyColumns
        includeColumns := r.row.columns.drop r.numKeyColumns
        opclasses := r.row.opclasses
        predicate := r.row.predicate
        sql := unixLines r.row.sql }
    else none
  | .mysql => some
      { tableSchema := r.row.tableSchema
        tableName := r.row.tableName
        indexName := r.row.indexName
        indexType := r.row.indexType
        isUnique := r.row.isUnique
        columns := splitArgs (trimSpace (replacePair '\\' '\'' '\'' r.columns))
        descending := boolList r.descending }
  | .sqlserver =>
    (divide (boolList r.included) 0 (nameList r.columns)).bind fun (keys, rest) =>
      (if r.descending = [] then some [] else dropFirst (boolList r.descending) rest.length).map
        fun desc =>
        { tableSchema := r.row.tableSchema
          tableName := r.row.tableName
          indexName := r.row.indexName
          indexType := r.row.indexType
          isViewIndex := r.row.isViewIndex
          isUnique := r.row.isUnique
          columns := keys
          includeColumns := rest
          descending := desc
          predicate := r.row.predicate }
  | _ => some {}

/-! ## Routines, tables, triggers, views -/

/-- A row of the routines. -/
structure RoutineRow where
  row : Routine := {}
  returnType : Str := []
  parameters : Str := []
  routineBody : Str := []
  isDeterministic : Bool := false
  sqlDataAccess : Str := []
  securityType : Str := []

/-- /repo/ddl/database_introspector.go:1171-1228: a row of the routines -/
def scanRoutine (d : Dialect) (r : RoutineRow) : Routine :=
  match d with
  | .postgres =>
    { routineSchema := r.row.routineSchema
      routineName := r.row.routineName
      routineType := r.row.routineType
      identityArguments := r.row.identityArguments
      sql := unixLines r.row.sql
      comment := r.row.comment
      attrs := [(b!"returnType", r.returnType)] }
  | .mysql =>
    { routineSchema := r.row.routineSchema
      routineName := r.row.routineName
      routineType := r.row.routineType
      sql := unixLines r.row.sql
      comment := r.row.comment
      attrs :=
        [(b!"returnType", r.returnType), (b!"parameters", r.parameters),
         (b!"routineBody", r.routineBody),
         (b!"isDeterministic", if r.isDeterministic then b!"true" else b!"false"),
         (b!"sqlDataAccess", r.sqlDataAccess), (b!"securityType", r.securityType)] }
  | .sqlserver =>
    { routineSchema := r.row.routineSchema
      routineName := r.row.routineName
      routineType := r.row.routineType
      sql := unixLines r.row.sql }
  | _ => {}

/-- /repo/ddl/database_introspector.go:1277-1295: a row of the tables -/
def scanTable (d : Dialect) (r : Table) : Table :=
  match d with
  | .sqlite => { tableName := r.tableName, sql := unixLines r.sql }
  | .postgres | .mysql =>
    { tableSchema := r.tableSchema, tableName := r.tableName, comment := r.comment }
  | .sqlserver => { tableSchema := r.tableSchema, tableName := r.tableName }
  | _ => {}

/-- A row of the triggers. -/
structure TriggerRow where
  row : Trigger := {}
  actionTiming : Str := []
  eventManipulation : Str := []

/-- /repo/ddl/database_introspector.go:1337-1385: a row of the triggers -/
def scanTrigger (d : Dialect) (r : TriggerRow) : Trigger :=
  match d with
  | .sqlite =>
    { tableName := r.row.tableName, triggerName := r.row.triggerName, sql := unixLines r.row.sql }
  | .postgres =>
    { tableSchema := r.row.tableSchema
      tableName := r.row.tableName
      triggerName := r.row.triggerName
      isViewTrigger := r.row.isViewTrigger
      sql := unixLines r.row.sql
      comment := r.row.comment }
  | .sqlserver =>
    { tableSchema := r.row.tableSchema
      tableName := r.row.tableName
      triggerName := r.row.triggerName
      isViewTrigger := r.row.isViewTrigger
      sql := unixLines r.row.sql }
  | .mysql =>
    { tableSchema := r.row.tableSchema
      tableName := r.row.tableName
      triggerName := r.row.triggerName
      sql := unixLines r.row.sql
      attrs := [(b!"actionTiming", r.actionTiming), (b!"eventManipulation", r.eventManipulation)] }
  | _ => {}

/-- A row of the views, with the texts of the lists. -/
structure ViewRow where
  row : View := {}
  columns : Str := []
  columnTypes : Str := []
  enumColumns : Str := []

/-- /repo/ddl/database_introspector.go:1442-1447, 1463-1468, 1483-1488: a list from a text -/
def barList (s : Str) : List Str := if s = [] then [] else split '|' s

/-- /repo/ddl/database_introspector.go:1469-1476: the columns at the places that are true -/
def enumsOf (columns : List Str) (s : Str) : List Str :=
  if s = [] then []
  else (columns.zip ((split '|' s).map boolOf)).filterMap fun (c, b) => if b then some c else none

/-- /repo/ddl/database_introspector.go:1434-1490: a row of the views -/
def scanView (d : Dialect) (r : ViewRow) : View :=
  match d with
  | .sqlite =>
    { viewName := r.row.viewName
      sql := unixLines r.row.sql
      columns := barList r.columns
      columnTypes := barList r.columnTypes }
  | .postgres =>
    { viewSchema := r.row.viewSchema
      viewName := r.row.viewName
      isMaterialized := r.row.isMaterialized
      sql := unixLines r.row.sql
      columns := barList r.columns
      columnTypes := barList r.columnTypes
      enumColumns := enumsOf (barList r.columns) r.enumColumns
      comment := r.row.comment }
  | .mysql | .sqlserver =>
    { viewSchema := r.row.viewSchema
      viewName := r.row.viewName
      sql := unixLines r.row.sql
      columns := barList r.columns
      columnTypes := barList r.columnTypes }
  | _ => {}

/-! ## Filters -/

/-- /repo/ddl/database_introspector.go:1640-1668 `mklist` -/
def mklist (strs : List Str) : Str :=
  join b!", " ((strs.filter (· ≠ [])).map fun s => b!"'" ++ escapeQuote '\'' s ++ b!"'")

/-- /repo/ddl/database_introspector.go:1626-1636 `IncludeConstraintType` -/
def includeConstraintType (types : List Str) (t : Str) : Bool :=
  types.isEmpty || types.contains t

end Sqddl.Introspect
