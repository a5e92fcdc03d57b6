import Verif.Model.Catalog
import Verif.Model.Json

/-!
# Catalogs as JSON

What `encoding/json` makes of the record types of /repo/ddl/ddl.go:52-564: schema.json is written by
/repo/ddl/dump_cmd.go:332-343, 424-441, 531-547 and read by /repo/ddl/generate_cmd.go:322-334, 358-370,
400-456.  Every field has the tag `json:",omitempty"`, so that it is called as it is in Go and an empty
text, an empty list and `false` are left out.
-/

namespace Sqddl.CatalogJson
open Go
open JsonText (Json)

/-! ## Writing -/

/-- A member with a text. -/
def str (k s : Str) : List (Str × Json) := if s = [] then [] else [(k, .str s)]

/-- A member with a boolean. -/
def flag (k : Str) (b : Bool) : List (Str × Json) := if b = false then [] else [(k, .bool b)]

/-- A member with a list. -/
def list {α : Type} (f : α → Json) (k : Str) (xs : List α) : List (Str × Json) :=
  if xs = [] then [] else [(k, .arr (xs.map f))]

/-- A member with a map, which is written in the order of the keys. -/
def attrs (k : Str) (xs : List (Str × Str)) : List (Str × Json) :=
  if xs = [] then []
  else [(k, .obj ((xs.mergeSort fun a b => decide (a.1 ≤ b.1)).map fun p => (p.1, .str p.2)))]

/-- /repo/ddl/ddl.go:129-145 -/
def enumMembers (x : Enum) : List (Str × Json) :=
  str b!"EnumSchema" x.enumSchema ++
  str b!"EnumName" x.enumName ++
  list .str b!"EnumLabels" x.enumLabels ++
  str b!"Comment" x.comment ++
  flag b!"Ignore" x.ignore

/-- /repo/ddl/ddl.go:129-145 -/
def enum (x : Enum) : Json := .obj (enumMembers x)

/-- /repo/ddl/ddl.go:148-180 -/
def domainMembers (x : Domain) : List (Str × Json) :=
  str b!"DomainSchema" x.domainSchema ++
  str b!"DomainName" x.domainName ++
  str b!"UnderlyingType" x.underlyingType ++
  str b!"CollationName" x.collationName ++
  flag b!"IsNotNull" x.isNotNull ++
  str b!"ColumnDefault" x.columnDefault ++
  list .str b!"CheckNames" x.checkNames ++
  list .str b!"CheckExprs" x.checkExprs ++
  str b!"Comment" x.comment ++
  flag b!"Ignore" x.ignore

/-- /repo/ddl/ddl.go:148-180 -/
def domain (x : Domain) : Json := .obj (domainMembers x)

/-- /repo/ddl/ddl.go:184-211 -/
def routineMembers (x : Routine) : List (Str × Json) :=
  str b!"RoutineSchema" x.routineSchema ++
  str b!"RoutineName" x.routineName ++
  str b!"IdentityArguments" x.identityArguments ++
  str b!"RoutineType" x.routineType ++
  str b!"SQL" x.sql ++
  attrs b!"Attrs" x.attrs ++
  str b!"Comment" x.comment ++
  flag b!"Ignore" x.ignore

/-- /repo/ddl/ddl.go:184-211 -/
def routine (x : Routine) : Json := .obj (routineMembers x)

/-- /repo/ddl/ddl.go:286-407 -/
def columnMembers (x : Column) : List (Str × Json) :=
  str b!"TableSchema" x.tableSchema ++
  str b!"TableName" x.tableName ++
  str b!"ColumnName" x.columnName ++
  str b!"ColumnType" x.columnType ++
  str b!"CharacterLength" x.characterLength ++
  str b!"NumericPrecision" x.numericPrecision ++
  str b!"NumericScale" x.numericScale ++
  str b!"DomainName" x.domainName ++
  flag b!"IsEnum" x.isEnum ++
  flag b!"IsNotNull" x.isNotNull ++
  flag b!"IsPrimaryKey" x.isPrimaryKey ++
  flag b!"IsUnique" x.isUnique ++
  flag b!"IsAutoincrement" x.isAutoincrement ++
  str b!"ReferencesSchema" x.referencesSchema ++
  str b!"ReferencesTable" x.referencesTable ++
  str b!"ReferencesColumn" x.referencesColumn ++
  str b!"UpdateRule" x.updateRule ++
  str b!"DeleteRule" x.deleteRule ++
  flag b!"IsDeferrable" x.isDeferrable ++
  flag b!"IsInitiallyDeferred" x.isInitiallyDeferred ++
  str b!"ColumnIdentity" x.columnIdentity ++
  str b!"ColumnDefault" x.columnDefault ++
  flag b!"OnUpdateCurrentTimestamp" x.onUpdateCurrentTimestamp ++
  flag b!"IsGenerated" x.isGenerated ++
  str b!"GeneratedExpr" x.generatedExpr ++
  flag b!"GeneratedExprStored" x.generatedExprStored ++
  str b!"CollationName" x.collationName ++
  str b!"Comment" x.comment ++
  flag b!"Ignore" x.ignore

/-- /repo/ddl/ddl.go:286-407 -/
def column (x : Column) : Json := .obj (columnMembers x)

/-- /repo/ddl/ddl.go:410-489 -/
def constraintMembers (x : Constraint) : List (Str × Json) :=
  str b!"TableSchema" x.tableSchema ++
  str b!"TableName" x.tableName ++
  str b!"ConstraintName" x.constraintName ++
  str b!"ConstraintType" x.constraintType ++
  list .str b!"Columns" x.columns ++
  str b!"ReferencesSchema" x.referencesSchema ++
  str b!"ReferencesTable" x.referencesTable ++
  list .str b!"ReferencesColumns" x.referencesColumns ++
  str b!"UpdateRule" x.updateRule ++
  str b!"DeleteRule" x.deleteRule ++
  str b!"MatchOption" x.matchOption ++
  str b!"CheckExpr" x.checkExpr ++
  list .str b!"ExclusionOperators" x.exclusionOperators ++
  str b!"ExclusionIndexType" x.exclusionIndexType ++
  str b!"ExclusionPredicate" x.exclusionPredicate ++
  flag b!"IsDeferrable" x.isDeferrable ++
  flag b!"IsInitiallyDeferred" x.isInitiallyDeferred ++
  flag b!"IsClustered" x.isClustered ++
  flag b!"IsNotValid" x.isNotValid ++
  str b!"Comment" x.comment ++
  flag b!"Ignore" x.ignore

/-- /repo/ddl/ddl.go:410-489 -/
def constraint (x : Constraint) : Json := .obj (constraintMembers x)

/-- /repo/ddl/ddl.go:492-536 -/
def indexMembers (x : Index) : List (Str × Json) :=
  str b!"TableSchema" x.tableSchema ++
  str b!"TableName" x.tableName ++
  str b!"IndexName" x.indexName ++
  str b!"IndexType" x.indexType ++
  flag b!"IsViewIndex" x.isViewIndex ++
  flag b!"IsUnique" x.isUnique ++
  list .str b!"Columns" x.columns ++
  list .str b!"IncludeColumns" x.includeColumns ++
  list .bool b!"Descending" x.descending ++
  list .str b!"Opclasses" x.opclasses ++
  str b!"Predicate" x.predicate ++
  str b!"SQL" x.sql ++
  str b!"Comment" x.comment ++
  flag b!"Ignore" x.ignore

/-- /repo/ddl/ddl.go:492-536 -/
def index (x : Index) : Json := .obj (indexMembers x)

/-- /repo/ddl/ddl.go:539-564 -/
def triggerMembers (x : Trigger) : List (Str × Json) :=
  str b!"TableSchema" x.tableSchema ++
  str b!"TableName" x.tableName ++
  str b!"TriggerName" x.triggerName ++
  flag b!"IsViewTrigger" x.isViewTrigger ++
  str b!"SQL" x.sql ++
  attrs b!"Attrs" x.attrs ++
  str b!"Comment" x.comment ++
  flag b!"Ignore" x.ignore

/-- /repo/ddl/ddl.go:539-564 -/
def trigger (x : Trigger) : Json := .obj (triggerMembers x)

/-- /repo/ddl/ddl.go:214-249 -/
def viewMembers (x : View) : List (Str × Json) :=
  str b!"ViewSchema" x.viewSchema ++
  str b!"ViewName" x.viewName ++
  flag b!"IsMaterialized" x.isMaterialized ++
  str b!"SQL" x.sql ++
  list .str b!"Columns" x.columns ++
  list .str b!"ColumnTypes" x.columnTypes ++
  list .str b!"EnumColumns" x.enumColumns ++
  list index b!"Indexes" x.indexes ++
  list trigger b!"Triggers" x.triggers ++
  str b!"Comment" x.comment ++
  flag b!"Ignore" x.ignore

/-- /repo/ddl/ddl.go:214-249 -/
def view (x : View) : Json := .obj (viewMembers x)

/-- /repo/ddl/ddl.go:252-283 -/
def tableMembers (x : Table) : List (Str × Json) :=
  str b!"TableSchema" x.tableSchema ++
  str b!"TableName" x.tableName ++
  str b!"SQL" x.sql ++
  flag b!"IsVirtual" x.isVirtual ++
  list column b!"Columns" x.columns ++
  list constraint b!"Constraints" x.constraints ++
  list index b!"Indexes" x.indexes ++
  list trigger b!"Triggers" x.triggers ++
  str b!"Comment" x.comment ++
  flag b!"Ignore" x.ignore

/-- /repo/ddl/ddl.go:252-283 -/
def table (x : Table) : Json := .obj (tableMembers x)

/-- /repo/ddl/ddl.go:88-126 -/
def schemaMembers (x : Schema) : List (Str × Json) :=
  str b!"SchemaName" x.schemaName ++
  list table b!"Tables" x.tables ++
  list view b!"Views" x.views ++
  flag b!"ViewsValid" x.viewsValid ++
  list routine b!"Routines" x.routines ++
  flag b!"RoutinesValid" x.routinesValid ++
  list enum b!"Enums" x.enums ++
  flag b!"EnumsValid" x.enumsValid ++
  list domain b!"Domains" x.domains ++
  flag b!"DomainsValid" x.domainsValid ++
  str b!"Comment" x.comment ++
  flag b!"Ignore" x.ignore

/-- /repo/ddl/ddl.go:88-126 -/
def schema (x : Schema) : Json := .obj (schemaMembers x)

/-- /repo/ddl/ddl.go:52-85 -/
def catalogMembers (x : Catalog) : List (Str × Json) :=
  str b!"Dialect" x.dialect ++
  list .int b!"VersionNums" x.versionNums ++
  str b!"CatalogName" x.catalogName ++
  str b!"CurrentSchema" x.currentSchema ++
  str b!"DefaultCollation" x.defaultCollation ++
  flag b!"DefaultCollationValid" x.defaultCollationValid ++
  list .str b!"Extensions" x.extensions ++
  flag b!"ExtensionsValid" x.extensionsValid ++
  list schema b!"Schemas" x.schemas

/-- /repo/ddl/ddl.go:52-85 -/
def catalog (x : Catalog) : Json := .obj (catalogMembers x)

/-- /repo/ddl/dump_cmd.go:338-343: the text of schema.json -/
def schemaJson (c : Catalog) : Str := encodeJson (catalog c)

/-! ## Reading

`json.Decoder.Decode(catalog)` decodes into the catalog as it is: a field that is not in the text stays
as it was, and the elements of a list are decoded into the elements that are already there.  `none` is an
error.  Simplified: the keys of the members are compared as they are (Go also accepts other cases), and
elements behind the end of a list (Go may find old ones in the capacity of the slice) are zero. -/

/-- Decodes a text. -/
def getStr : Json → Str → Option Str
  | .str s, _ => some s
  | .null, old => some old
  | _, _ => none

/-- Decodes a boolean. -/
def getFlag : Json → Bool → Option Bool
  | .bool b, _ => some b
  | .null, old => some old
  | _, _ => none

/-- Decodes a number. -/
def getInt : Json → Int → Option Int
  | .int n, _ => some n
  | .null, old => some old
  | _, _ => none

/-- Decodes the elements of a list. -/
def getItems {α : Type} (f : Json → α → Option α) (zero : α) : List Json → List α → Option (List α)
  | [], _ => some []
  | x :: xs, old =>
    (f x (old.head?.getD zero)).bind fun y => (getItems f zero xs old.tail).map (y :: ·)

/-- Decodes a list. -/
def getList {α : Type} (f : Json → α → Option α) (zero : α) : Json → List α → Option (List α)
  | .arr xs, old => getItems f zero xs old
  | .null, _ => some []
  | _, _ => none

/-- `m[k] = v` -/
def putAttr (k v : Str) : List (Str × Str) → List (Str × Str)
  | [] => [(k, v)]
  | p :: r => if p.1 = k then (k, v) :: r else p :: putAttr k v r

/-- Decodes the members of a map. -/
def getPairs : List (Str × Json) → List (Str × Str) → Option (List (Str × Str))
  | [], old => some old
  | (k, x) :: r, old => (getStr x []).bind fun v => getPairs r (putAttr k v old)

/-- Decodes a map. -/
def getAttrs : Json → List (Str × Str) → Option (List (Str × Str))
  | .obj ms, old => getPairs ms old
  | .null, _ => some []
  | _, _ => none

/-- The fields of a record: how the value of a member changes it. -/
abbrev Fields (σ : Type) := List (Str × (Json → σ → Option σ))

/-- Decodes the members of a record; others are passed over. -/
def getMembers {σ : Type} (fs : Fields σ) : List (Str × Json) → σ → Option σ
  | [], x => some x
  | (k, j) :: r, x =>
    match fs.lookup k with
    | none => getMembers fs r x
    | some f => (f j x).bind (getMembers fs r)

/-- Decodes a record. -/
def getRecord {σ : Type} (fs : Fields σ) : Json → σ → Option σ
  | .obj ms, x => getMembers fs ms x
  | .null, x => some x
  | _, _ => none

/-- /repo/ddl/ddl.go:129-145 -/
def enumFields : Fields Enum := [
  (b!"EnumSchema",
    fun j x => (getStr j x.enumSchema).map fun y => { x with enumSchema := y }),
  (b!"EnumName",
    fun j x => (getStr j x.enumName).map fun y => { x with enumName := y }),
  (b!"EnumLabels",
    fun j x => (getList getStr [] j x.enumLabels).map fun y => { x with enumLabels := y }),
  (b!"Comment",
    fun j x => (getStr j x.comment).map fun y => { x with comment := y }),
  (b!"Ignore",
    fun j x => (getFlag j x.ignore).map fun y => { x with ignore := y })]

/-- /repo/ddl/ddl.go:148-180 -/
def domainFields : Fields Domain := [
  (b!"DomainSchema",
    fun j x => (getStr j x.domainSchema).map fun y => { x with domainSchema := y }),
  (b!"DomainName",
    fun j x => (getStr j x.domainName).map fun y => { x with domainName := y }),
  (b!"UnderlyingType",
    fun j x => (getStr j x.underlyingType).map fun y => { x with underlyingType := y }),
  (b!"CollationName",
    fun j x => (getStr j x.collationName).map fun y => { x with collationName := y }),
  (b!"IsNotNull",
    fun j x => (getFlag j x.isNotNull).map fun y => { x with isNotNull := y }),
  (b!"ColumnDefault",
    fun j x => (getStr j x.columnDefault).map fun y => { x with columnDefault := y }),
  (b!"CheckNames",
    fun j x => (getList getStr [] j x.checkNames).map fun y => { x with checkNames := y }),
  (b!"CheckExprs",
    fun j x => (getList getStr [] j x.checkExprs).map fun y => { x with checkExprs := y }),
  (b!"Comment",
    fun j x => (getStr j x.comment).map fun y => { x with comment := y }),
  (b!"Ignore",
    fun j x => (getFlag j x.ignore).map fun y => { x with ignore := y })]

/-- /repo/ddl/ddl.go:184-211 -/
def routineFields : Fields Routine := [
  (b!"RoutineSchema",
    fun j x => (getStr j x.routineSchema).map fun y => { x with routineSchema := y }),
  (b!"RoutineName",
    fun j x => (getStr j x.routineName).map fun y => { x with routineName := y }),
  (b!"IdentityArguments",
    fun j x => (getStr j x.identityArguments).map fun y => { x with identityArguments := y }),
  (b!"RoutineType",
    fun j x => (getStr j x.routineType).map fun y => { x with routineType := y }),
  (b!"SQL",
    fun j x => (getStr j x.sql).map fun y => { x with sql := y }),
  (b!"Attrs",
    fun j x => (getAttrs j x.attrs).map fun y => { x with attrs := y }),
  (b!"Comment",
    fun j x => (getStr j x.comment).map fun y => { x with comment := y }),
  (b!"Ignore",
    fun j x => (getFlag j x.ignore).map fun y => { x with ignore := y })]

/-- /repo/ddl/ddl.go:286-407 -/
def columnFields : Fields Column := [
  (b!"TableSchema",
    fun j x => (getStr j x.tableSchema).map fun y => { x with tableSchema := y }),
  (b!"TableName",
    fun j x => (getStr j x.tableName).map fun y => { x with tableName := y }),
  (b!"ColumnName",
    fun j x => (getStr j x.columnName).map fun y => { x with columnName := y }),
  (b!"ColumnType",
    fun j x => (getStr j x.columnType).map fun y => { x with columnType := y }),
  (b!"CharacterLength",
    fun j x => (getStr j x.characterLength).map fun y => { x with characterLength := y }),
  (b!"NumericPrecision",
    fun j x => (getStr j x.numericPrecision).map fun y => { x with numericPrecision := y }),
  (b!"NumericScale",
    fun j x => (getStr j x.numericScale).map fun y => { x with numericScale := y }),
  (b!"DomainName",
    fun j x => (getStr j x.domainName).map fun y => { x with domainName := y }),
  (b!"IsEnum",
    fun j x => (getFlag j x.isEnum).map fun y => { x with isEnum := y }),
  (b!"IsNotNull",
    fun j x => (getFlag j x.isNotNull).map fun y => { x with isNotNull := y }),
  (b!"IsPrimaryKey",
    fun j x => (getFlag j x.isPrimaryKey).map fun y => { x with isPrimaryKey := y }),
  (b!"IsUnique",
    fun j x => (getFlag j x.isUnique).map fun y => { x with isUnique := y }),
  (b!"IsAutoincrement",
    fun j x => (getFlag j x.isAutoincrement).map fun y => { x with isAutoincrement := y }),
  (b!"ReferencesSchema",
    fun j x => (getStr j x.referencesSchema).map fun y => { x with referencesSchema := y }),
  (b!"ReferencesTable",
    fun j x => (getStr j x.referencesTable).map fun y => { x with referencesTable := y }),
  (b!"ReferencesColumn",
    fun j x => (getStr j x.referencesColumn).map fun y => { x with referencesColumn := y }),
  (b!"UpdateRule",
    fun j x => (getStr j x.updateRule).map fun y => { x with updateRule := y }),
  (b!"DeleteRule",
    fun j x => (getStr j x.deleteRule).map fun y => { x with deleteRule := y }),
  (b!"IsDeferrable",
    fun j x => (getFlag j x.isDeferrable).map fun y => { x with isDeferrable := y }),
  (b!"IsInitiallyDeferred",
    fun j x => (getFlag j x.isInitiallyDeferred).map fun y => { x with isInitiallyDeferred := y }),
  (b!"ColumnIdentity",
    fun j x => (getStr j x.columnIdentity).map fun y => { x with columnIdentity := y }),
  (b!"ColumnDefault",
    fun j x => (getStr j x.columnDefault).map fun y => { x with columnDefault := y }),
  (b!"OnUpdateCurrentTimestamp",
    fun j x => (getFlag j x.onUpdateCurrentTimestamp).map fun y => { x with onUpdateCurrentTimestamp := y }),
  (b!"IsGenerated",
    fun j x => (getFlag j x.isGenerated).map fun y => { x with isGenerated := y }),
  (b!"GeneratedExpr",
    fun j x => (getStr j x.generatedExpr).map fun y => { x with generatedExpr := y }),
  (b!"GeneratedExprStored",
    fun j x => (getFlag j x.generatedExprStored).map fun y => { x with generatedExprStored := y }),
  (b!"CollationName",
    fun j x => (getStr j x.collationName).map fun y => { x with collationName := y }),
  (b!"Comment",
    fun j x => (getStr j x.comment).map fun y => { x with comment := y }),
  (b!"Ignore",
    fun j x => (getFlag j x.ignore).map fun y => { x with ignore := y })]

/-- /repo/ddl/ddl.go:410-489 -/
def constraintFields : Fields Constraint := [
  (b!"TableSchema",
    fun j x => (getStr j x.tableSchema).map fun y => { x with tableSchema := y }),
  (b!"TableName",
    fun j x => (getStr j x.tableName).map fun y => { x with tableName := y }),
  (b!"ConstraintName",
    fun j x => (getStr j x.constraintName).map fun y => { x with constraintName := y }),
  (b!"ConstraintType",
    fun j x => (getStr j x.constraintType).map fun y => { x with constraintType := y }),
  (b!"Columns",
    fun j x => (getList getStr [] j x.columns).map fun y => { x with columns := y }),
  (b!"ReferencesSchema",
    fun j x => (getStr j x.referencesSchema).map fun y => { x with referencesSchema := y }),
  (b!"ReferencesTable",
    fun j x => (getStr j x.referencesTable).map fun y => { x with referencesTable := y }),
  (b!"ReferencesColumns",
    fun j x => (getList getStr [] j x.referencesColumns).map fun y => { x with referencesColumns := y }),
  (b!"UpdateRule",
    fun j x => (getStr j x.updateRule).map fun y => { x with updateRule := y }),
  (b!"DeleteRule",
    fun j x => (getStr j x.deleteRule).map fun y => { x with deleteRule := y }),
  (b!"MatchOption",
    fun j x => (getStr j x.matchOption).map fun y => { x with matchOption := y }),
  (b!"CheckExpr",
    fun j x => (getStr j x.checkExpr).map fun y => { x with checkExpr := y }),
  (b!"ExclusionOperators",
    fun j x => (getList getStr [] j x.exclusionOperators).map fun y => { x with exclusionOperators := y }),
  (b!"ExclusionIndexType",
    fun j x => (getStr j x.exclusionIndexType).map fun y => { x with exclusionIndexType := y }),
  (b!"ExclusionPredicate",
    fun j x => (getStr j x.exclusionPredicate).map fun y => { x with exclusionPredicate := y }),
  (b!"IsDeferrable",
    fun j x => (getFlag j x.isDeferrable).map fun y => { x with isDeferrable := y }),
  (b!"IsInitiallyDeferred",
    fun j x => (getFlag j x.isInitiallyDeferred).map fun y => { x with isInitiallyDeferred := y }),
  (b!"IsClustered",
    fun j x => (getFlag j x.isClustered).map fun y => { x with isClustered := y }),
  (b!"IsNotValid",
    fun j x => (getFlag j x.isNotValid).map fun y => { x with isNotValid := y }),
  (b!"Comment",
    fun j x => (getStr j x.comment).map fun y => { x with comment := y }),
  (b!"Ignore",
    fun j x => (getFlag j x.ignore).map fun y => { x with ignore := y })]

/-- /repo/ddl/ddl.go:492-536 -/
def indexFields : Fields Index := [
  (b!"TableSchema",
    fun j x => (getStr j x.tableSchema).map fun y => { x with tableSchema := y }),
  (b!"TableName",
    fun j x => (getStr j x.tableName).map fun y => { x with tableName := y }),
  (b!"IndexName",
    fun j x => (getStr j x.indexName).map fun y => { x with indexName := y }),
  (b!"IndexType",
    fun j x => (getStr j x.indexType).map fun y => { x with indexType := y }),
  (b!"IsViewIndex",
    fun j x => (getFlag j x.isViewIndex).map fun y => { x with isViewIndex := y }),
  (b!"IsUnique",
    fun j x => (getFlag j x.isUnique).map fun y => { x with isUnique := y }),
  (b!"Columns",
    fun j x => (getList getStr [] j x.columns).map fun y => { x with columns := y }),
  (b!"IncludeColumns",
    fun j x => (getList getStr [] j x.includeColumns).map fun y => { x with includeColumns := y }),
  (b!"Descending",
    fun j x => (getList getFlag false j x.descending).map fun y => { x with descending := y }),
  (b!"Opclasses",
    fun j x => (getList getStr [] j x.opclasses).map fun y => { x with opclasses := y }),
  (b!"Predicate",
    fun j x => (getStr j x.predicate).map fun y => { x with predicate := y }),
  (b!"SQL",
    fun j x => (getStr j x.sql).map fun y => { x with sql := y }),
  (b!"Comment",
    fun j x => (getStr j x.comment).map fun y => { x with comment := y }),
  (b!"Ignore",
    fun j x => (getFlag j x.ignore).map fun y => { x with ignore := y })]

/-- /repo/ddl/ddl.go:539-564 -/
def triggerFields : Fields Trigger := [
  (b!"TableSchema",
    fun j x => (getStr j x.tableSchema).map fun y => { x with tableSchema := y }),
  (b!"TableName",
    fun j x => (getStr j x.tableName).map fun y => { x with tableName := y }),
  (b!"TriggerName",
    fun j x => (getStr j x.triggerName).map fun y => { x with triggerName := y }),
  (b!"IsViewTrigger",
    fun j x => (getFlag j x.isViewTrigger).map fun y => { x with isViewTrigger := y }),
  (b!"SQL",
    fun j x => (getStr j x.sql).map fun y => { x with sql := y }),
  (b!"Attrs",
    fun j x => (getAttrs j x.attrs).map fun y => { x with attrs := y }),
  (b!"Comment",
    fun j x => (getStr j x.comment).map fun y => { x with comment := y }),
  (b!"Ignore",
    fun j x => (getFlag j x.ignore).map fun y => { x with ignore := y })]

/-- /repo/ddl/ddl.go:214-249 -/
def viewFields : Fields View := [
  (b!"ViewSchema",
    fun j x => (getStr j x.viewSchema).map fun y => { x with viewSchema := y }),
  (b!"ViewName",
    fun j x => (getStr j x.viewName).map fun y => { x with viewName := y }),
  (b!"IsMaterialized",
    fun j x => (getFlag j x.isMaterialized).map fun y => { x with isMaterialized := y }),
  (b!"SQL",
    fun j x => (getStr j x.sql).map fun y => { x with sql := y }),
  (b!"Columns",
    fun j x => (getList getStr [] j x.columns).map fun y => { x with columns := y }),
  (b!"ColumnTypes",
    fun j x => (getList getStr [] j x.columnTypes).map fun y => { x with columnTypes := y }),
  (b!"EnumColumns",
    fun j x => (getList getStr [] j x.enumColumns).map fun y => { x with enumColumns := y }),
  (b!"Indexes",
    fun j x => (getList (getRecord indexFields) {} j x.indexes).map fun y => { x with indexes := y }),
  (b!"Triggers",
    fun j x => (getList (getRecord triggerFields) {} j x.triggers).map fun y => { x with triggers := y }),
  (b!"Comment",
    fun j x => (getStr j x.comment).map fun y => { x with comment := y }),
  (b!"Ignore",
    fun j x => (getFlag j x.ignore).map fun y => { x with ignore := y })]

/-- /repo/ddl/ddl.go:252-283 -/
def tableFields : Fields Table := [
  (b!"TableSchema",
    fun j x => (getStr j x.tableSchema).map fun y => { x with tableSchema := y }),
  (b!"TableName",
    fun j x => (getStr j x.tableName).map fun y => { x with tableName := y }),
  (b!"SQL",
    fun j x => (getStr j x.sql).map fun y => { x with sql := y }),
  (b!"IsVirtual",
    fun j x => (getFlag j x.isVirtual).map fun y => { x with isVirtual := y }),
  (b!"Columns",
    fun j x => (getList (getRecord columnFields) {} j x.columns).map fun y => { x with columns := y }),
  (b!"Constraints",
    fun j x => (getList (getRecord constraintFields) {} j x.constraints).map fun y => { x with constraints := y }),
  (b!"Indexes",
    fun j x => (getList (getRecord indexFields) {} j x.indexes).map fun y => { x with indexes := y }),
  (b!"Triggers",
    fun j x => (getList (getRecord triggerFields) {} j x.triggers).map fun y => { x with triggers := y }),
  (b!"Comment",
    fun j x => (getStr j x.comment).map fun y => { x with comment := y }),
  (b!"Ignore",
    fun j x => (getFlag j x.ignore).map fun y => { x with ignore := y })]

/-- /repo/ddl/ddl.go:88-126 -/
def schemaFields : Fields Schema := [
  (b!"SchemaName",
    fun j x => (getStr j x.schemaName).map fun y => { x with schemaName := y }),
  (b!"Tables",
    fun j x => (getList (getRecord tableFields) {} j x.tables).map fun y => { x with tables := y }),
  (b!"Views",
    fun j x => (getList (getRecord viewFields) {} j x.views).map fun y => { x with views := y }),
  (b!"ViewsValid",
    fun j x => (getFlag j x.viewsValid).map fun y => { x with viewsValid := y }),
  (b!"Routines",
    fun j x => (getList (getRecord routineFields) {} j x.routines).map fun y => { x with routines := y }),
  (b!"RoutinesValid",
    fun j x => (getFlag j x.routinesValid).map fun y => { x with routinesValid := y }),
  (b!"Enums",
    fun j x => (getList (getRecord enumFields) {} j x.enums).map fun y => { x with enums := y }),
  (b!"EnumsValid",
    fun j x => (getFlag j x.enumsValid).map fun y => { x with enumsValid := y }),
  (b!"Domains",
    fun j x => (getList (getRecord domainFields) {} j x.domains).map fun y => { x with domains := y }),
  (b!"DomainsValid",
    fun j x => (getFlag j x.domainsValid).map fun y => { x with domainsValid := y }),
  (b!"Comment",
    fun j x => (getStr j x.comment).map fun y => { x with comment := y }),
  (b!"Ignore",
    fun j x => (getFlag j x.ignore).map fun y => { x with ignore := y })]

/-- /repo/ddl/ddl.go:52-85 -/
def catalogFields : Fields Catalog := [
  (b!"Dialect",
    fun j x => (getStr j x.dialect).map fun y => { x with dialect := y }),
  (b!"VersionNums",
    fun j x => (getList getInt 0 j x.versionNums).map fun y => { x with versionNums := y }),
  (b!"CatalogName",
    fun j x => (getStr j x.catalogName).map fun y => { x with catalogName := y }),
  (b!"CurrentSchema",
    fun j x => (getStr j x.currentSchema).map fun y => { x with currentSchema := y }),
  (b!"DefaultCollation",
    fun j x => (getStr j x.defaultCollation).map fun y => { x with defaultCollation := y }),
  (b!"DefaultCollationValid",
    fun j x => (getFlag j x.defaultCollationValid).map fun y => { x with defaultCollationValid := y }),
  (b!"Extensions",
    fun j x => (getList getStr [] j x.extensions).map fun y => { x with extensions := y }),
  (b!"ExtensionsValid",
    fun j x => (getFlag j x.extensionsValid).map fun y => { x with extensionsValid := y }),
  (b!"Schemas",
    fun j x => (getList (getRecord schemaFields) {} j x.schemas).map fun y => { x with schemas := y })]

/-- `json.NewDecoder(file).Decode(catalog)` -/
def decode (text : Str) (c : Catalog) : Option Catalog :=
  (JsonText.read text).bind fun j => getRecord catalogFields j c

end Sqddl.CatalogJson
