import Verif.Model.Ddl

/-!
# Catalogs

The record types of /repo/ddl/ddl.go:52-564.  A Go slice is a `List` (a nil slice and an empty
slice are the same list); the `Attrs` maps are association lists.
-/

namespace Sqddl

/-- /repo/ddl/ddl.go:20 -/
def PRIMARY_KEY : Str := b!"PRIMARY KEY"
/-- /repo/ddl/ddl.go:21 -/
def FOREIGN_KEY : Str := b!"FOREIGN KEY"
/-- /repo/ddl/ddl.go:22 -/
def UNIQUE : Str := b!"UNIQUE"
/-- /repo/ddl/ddl.go:23 -/
def CHECK : Str := b!"CHECK"
/-- /repo/ddl/ddl.go:24 -/
def EXCLUDE : Str := b!"EXCLUDE"
/-- /repo/ddl/ddl.go:33 -/
def NO_ACTION : Str := b!"NO ACTION"

/-- /repo/ddl/ddl.go:129-145 `type Enum struct` -/
structure Enum where
  enumSchema : Str := []
  enumName : Str := []
  enumLabels : List Str := []
  comment : Str := []
  ignore : Bool := false
deriving DecidableEq, Repr

/-- /repo/ddl/ddl.go:148-180 `type Domain struct` -/
structure Domain where
  domainSchema : Str := []
  domainName : Str := []
  underlyingType : Str := []
  collationName : Str := []
  isNotNull : Bool := false
  columnDefault : Str := []
  checkNames : List Str := []
  checkExprs : List Str := []
  comment : Str := []
  ignore : Bool := false
deriving DecidableEq, Repr

/-- /repo/ddl/ddl.go:184-211 `type Routine struct` -/
structure Routine where
  routineSchema : Str := []
  routineName : Str := []
  identityArguments : Str := []
  routineType : Str := []
  sql : Str := []
  attrs : List (Str × Str) := []
  comment : Str := []
  ignore : Bool := false
deriving DecidableEq, Repr

/-- /repo/ddl/ddl.go:286-407 `type Column struct` -/
structure Column where
  tableSchema : Str := []
  tableName : Str := []
  columnName : Str := []
  columnType : Str := []
  characterLength : Str := []
  numericPrecision : Str := []
  numericScale : Str := []
  domainName : Str := []
  isEnum : Bool := false
  isNotNull : Bool := false
  isPrimaryKey : Bool := false
  isUnique : Bool := false
  isAutoincrement : Bool := false
  referencesSchema : Str := []
  referencesTable : Str := []
  referencesColumn : Str := []
  updateRule : Str := []
  deleteRule : Str := []
  isDeferrable : Bool := false
  isInitiallyDeferred : Bool := false
  columnIdentity : Str := []
  columnDefault : Str := []
  onUpdateCurrentTimestamp : Bool := false
  isGenerated : Bool := false
  generatedExpr : Str := []
  generatedExprStored : Bool := false
  collationName : Str := []
  comment : Str := []
  ignore : Bool := false
deriving DecidableEq, Repr

/-- /repo/ddl/ddl.go:410-489 `type Constraint struct` -/
structure Constraint where
  tableSchema : Str := []
  tableName : Str := []
  constraintName : Str := []
  constraintType : Str := []
  columns : List Str := []
  referencesSchema : Str := []
  referencesTable : Str := []
  referencesColumns : List Str := []
  updateRule : Str := []
  deleteRule : Str := []
  matchOption : Str := []
  checkExpr : Str := []
  exclusionOperators : List Str := []
  exclusionIndexType : Str := []
  exclusionPredicate : Str := []
  isDeferrable : Bool := false
  isInitiallyDeferred : Bool := false
  isClustered : Bool := false
  isNotValid : Bool := false
  comment : Str := []
  ignore : Bool := false
deriving DecidableEq, Repr

/-- /repo/ddl/ddl.go:492-536 `type Index struct` -/
structure Index where
  tableSchema : Str := []
  tableName : Str := []
  indexName : Str := []
  indexType : Str := []
  isViewIndex : Bool := false
  isUnique : Bool := false
  columns : List Str := []
  includeColumns : List Str := []
  descending : List Bool := []
  opclasses : List Str := []
  predicate : Str := []
  sql : Str := []
  comment : Str := []
  ignore : Bool := false
deriving DecidableEq, Repr

/-- /repo/ddl/ddl.go:539-564 `type Trigger struct` -/
structure Trigger where
  tableSchema : Str := []
  tableName : Str := []
  triggerName : Str := []
  isViewTrigger : Bool := false
  sql : Str := []
  attrs : List (Str × Str) := []
  comment : Str := []
  ignore : Bool := false
deriving DecidableEq, Repr

/-- /repo/ddl/ddl.go:214-249 `type View struct` -/
structure View where
  viewSchema : Str := []
  viewName : Str := []
  isMaterialized : Bool := false
  sql : Str := []
  columns : List Str := []
  columnTypes : List Str := []
  enumColumns : List Str := []
  indexes : List Index := []
  triggers : List Trigger := []
  comment : Str := []
  ignore : Bool := false
deriving DecidableEq, Repr

/-- /repo/ddl/ddl.go:252-283 `type Table struct` -/
structure Table where
  tableSchema : Str := []
  tableName : Str := []
  sql : Str := []
  isVirtual : Bool := false
  columns : List Column := []
  constraints : List Constraint := []
  indexes : List Index := []
  triggers : List Trigger := []
  comment : Str := []
  ignore : Bool := false
deriving DecidableEq, Repr

/-- /repo/ddl/ddl.go:88-126 `type Schema struct` -/
structure Schema where
  schemaName : Str := []
  tables : List Table := []
  views : List View := []
  viewsValid : Bool := false
  routines : List Routine := []
  routinesValid : Bool := false
  enums : List Enum := []
  enumsValid : Bool := false
  domains : List Domain := []
  domainsValid : Bool := false
  comment : Str := []
  ignore : Bool := false
deriving DecidableEq, Repr

/-- /repo/ddl/ddl.go:52-85 `type Catalog struct` -/
structure Catalog where
  dialect : Str := []
  versionNums : List Int := []
  catalogName : Str := []
  currentSchema : Str := []
  defaultCollation : Str := []
  defaultCollationValid : Bool := false
  extensions : List Str := []
  extensionsValid : Bool := false
  schemas : List Schema := []
deriving DecidableEq, Repr

/-! ## The cache -/

/-- A Go map from keys to slice positions, as the list of assignments made to it (the last
assignment to a key counts). -/
abbrev PosMap (K : Type) := List (K × Nat)

/-- `i, ok := m[k]` -/
def PosMap.get {K : Type} [DecidableEq K] (m : PosMap K) (k : K) : Option Nat :=
  (m.reverse.find? fun e => e.1 == k).map (·.2)

/-- `m[k] = i` -/
def PosMap.set {K : Type} (m : PosMap K) (k : K) (i : Nat) : PosMap K := m ++ [(k, i)]

/-- The result of a `Get` function: nil, a pointer to an object, or an index out of range. -/
inductive Got (α : Type) where
  | nil
  | found (a : α)
  | panic
deriving DecidableEq, Repr

/-- What the caller sees when there was no panic. -/
def Got.toOption {α : Type} : Got α → Option α
  | .found a => some a
  | _ => none

/-- The body shared by all `Get` functions of /repo/ddl/catalog_cache.go (for instance 120-129
GetSchema, 385-394 GetTable): `i, ok := c.xs[key]; if ok && !xs[i].Ignore { return &xs[i] }`. -/
def getAt {α : Type} (ignored : α → Bool) (xs : List α) : Option Nat → Got α
  | none => .nil
  | some i =>
    match xs[i]? with
    | none => .panic
    | some a => if ignored a then .nil else .found a

/-- /repo/ddl/catalog_cache.go:9-24 `type CatalogCache struct` -/
structure CatalogCache where
  /-- `cache.dialect == "postgres"` -/
  isPostgres : Bool := false
  schemas : PosMap Str := []
  enums : PosMap (Str × Str) := []
  domains : PosMap (Str × Str) := []
  routines : PosMap (Str × Str × Str) := []
  views : PosMap (Str × Str) := []
  tables : PosMap (Str × Str) := []
  columns : PosMap (Str × Str × Str) := []
  constraints : PosMap (Str × Str × Str) := []
  indexes : PosMap (Str × Str × Str) := []
  triggers : PosMap (Str × Str × Str) := []
  pkeys : PosMap (Str × Str) := []
  fkeys : List ((Str × Str) × Nat) := []

/-- positions of a list: `for j, x := range xs { m[key x] = j }` -/
def positions {α K : Type} (key : α → K) (xs : List α) : PosMap K :=
  xs.zipIdx.map fun e => (key e.1, e.2)

/-- /repo/ddl/catalog_cache.go:86-91: the positions of the primary keys of a table -/
def pkeyPositions (s : Str) (t : Table) : PosMap (Str × Str) :=
  t.constraints.zipIdx.filterMap fun e =>
    if e.1.constraintType = PRIMARY_KEY then some ((s, t.tableName), e.2) else none

/-- /repo/ddl/catalog_cache.go:92-93: the positions of the foreign keys of a table, appended to
`cache.fkeys[tableID]` -/
def fkeyPositions (s : Str) (t : Table) : List ((Str × Str) × Nat) :=
  t.constraints.zipIdx.filterMap fun e =>
    if e.1.constraintType = FOREIGN_KEY then some ((s, t.tableName), e.2) else none

/-- /repo/ddl/catalog_cache.go:95-99: constraints without a name are not registered -/
def constraintPositions (s : Str) (t : Table) : PosMap (Str × Str × Str) :=
  t.constraints.zipIdx.filterMap fun e =>
    if e.1.constraintName = [] then none else some ((s, t.tableName, e.1.constraintName), e.2)

/-- /repo/ddl/catalog_cache.go:27-111 `NewCatalogCache`; each map is written in the order of the
nested loops. -/
def newCatalogCache (catalog : Catalog) : CatalogCache where
  isPostgres := catalog.dialect == b!"postgres"
  schemas := positions (·.schemaName) catalog.schemas
  enums := catalog.schemas.flatMap fun s => positions (fun e => (s.schemaName, e.enumName)) s.enums
  domains := catalog.schemas.flatMap fun s =>
    positions (fun e => (s.schemaName, e.domainName)) s.domains
  routines := catalog.schemas.flatMap fun s =>
    positions (fun r => (s.schemaName, r.routineName,
      if catalog.dialect == b!"postgres" then r.identityArguments else [])) s.routines
  views := catalog.schemas.flatMap fun s => positions (fun v => (s.schemaName, v.viewName)) s.views
  tables := catalog.schemas.flatMap fun s =>
    positions (fun t => (s.schemaName, t.tableName)) s.tables
  columns := catalog.schemas.flatMap fun s => s.tables.flatMap fun t =>
    positions (fun c => (s.schemaName, t.tableName, c.columnName)) t.columns
  constraints := catalog.schemas.flatMap fun s => s.tables.flatMap (constraintPositions s.schemaName)
  indexes := catalog.schemas.flatMap fun s =>
    (s.views.flatMap fun v =>
      if v.isMaterialized then
        positions (fun (x : Index) => (s.schemaName, v.viewName, x.indexName)) v.indexes
      else []) ++
    (s.tables.flatMap fun t =>
      positions (fun (x : Index) => (s.schemaName, t.tableName, x.indexName)) t.indexes)
  triggers := catalog.schemas.flatMap fun s =>
    (s.views.flatMap fun v =>
      if v.isMaterialized then []
      else positions (fun (x : Trigger) => (s.schemaName, v.viewName, x.triggerName)) v.triggers) ++
    (s.tables.flatMap fun t =>
      positions (fun (x : Trigger) => (s.schemaName, t.tableName, x.triggerName)) t.triggers)
  pkeys := catalog.schemas.flatMap fun s => s.tables.flatMap (pkeyPositions s.schemaName)
  fkeys := catalog.schemas.flatMap fun s => s.tables.flatMap (fkeyPositions s.schemaName)

namespace CatalogCache

/-- /repo/ddl/catalog_cache.go:120-129 `GetSchema` -/
def getSchema (c : CatalogCache) (catalog : Catalog) (name : Str) : Got Schema :=
  getAt (·.ignore) catalog.schemas (c.schemas.get name)

/-- /repo/ddl/catalog_cache.go:385-394 `GetTable` -/
def getTable (c : CatalogCache) (s : Schema) (name : Str) : Got Table :=
  getAt (·.ignore) s.tables (c.tables.get (s.schemaName, name))

/-- /repo/ddl/catalog_cache.go:436-445 `GetColumn` -/
def getColumn (c : CatalogCache) (t : Table) (name : Str) : Got Column :=
  getAt (·.ignore) t.columns (c.columns.get (t.tableSchema, t.tableName, name))

/-- /repo/ddl/catalog_cache.go:491-500 `GetConstraint` -/
def getConstraint (c : CatalogCache) (t : Table) (name : Str) : Got Constraint :=
  getAt (·.ignore) t.constraints (c.constraints.get (t.tableSchema, t.tableName, name))

/-- /repo/ddl/catalog_cache.go:562-571 `GetIndex` -/
def getIndex (c : CatalogCache) (t : Table) (name : Str) : Got Index :=
  getAt (·.ignore) t.indexes (c.indexes.get (t.tableSchema, t.tableName, name))

/-- /repo/ddl/catalog_cache.go:773-782 `GetPrimaryKey` -/
def getPrimaryKey (c : CatalogCache) (t : Table) : Got Constraint :=
  getAt (·.ignore) t.constraints (c.pkeys.get (t.tableSchema, t.tableName))

/-- /repo/ddl/catalog_cache.go:785-802 `GetForeignKeys`; a position out of range (a panic in Go)
is left out. -/
def getForeignKeys (c : CatalogCache) (t : Table) : List Constraint :=
  ((c.fkeys.filter fun e => e.1 == (t.tableSchema, t.tableName)).filterMap
    fun e => t.constraints[e.2]?).filter fun k => !k.ignore

end CatalogCache
end Sqddl
