import Verif.Model.Catalog
import Verif.Spec.JsonText

/-!
# The texts and the maps of a catalog

Which texts and which maps (`Attrs`) a catalog of /repo/ddl/ddl.go:52-564 holds.
-/

namespace CatalogTexts
open Go Sqddl

/-- The texts of a value of the type of /repo/ddl/ddl.go:129-145. -/
def enumTexts (x : Enum) : List Str :=
  [x.enumSchema, x.enumName, x.comment] ++
  x.enumLabels

/-- The texts of a value of the type of /repo/ddl/ddl.go:148-180. -/
def domainTexts (x : Domain) : List Str :=
  [x.domainSchema, x.domainName, x.underlyingType, x.collationName, x.columnDefault, x.comment] ++
  x.checkNames ++
  x.checkExprs

/-- The texts of a value of the type of /repo/ddl/ddl.go:184-211. -/
def routineTexts (x : Routine) : List Str :=
  [x.routineSchema, x.routineName, x.identityArguments, x.routineType, x.sql, x.comment] ++
  (x.attrs.flatMap fun p => [p.1, p.2])

/-- The maps of a value of the type of /repo/ddl/ddl.go:184-211. -/
def routineMaps (x : Routine) : List (List (Str × Str)) :=
  [x.attrs]

/-- The texts of a value of the type of /repo/ddl/ddl.go:286-407. -/
def columnTexts (x : Column) : List Str :=
  [x.tableSchema, x.tableName, x.columnName, x.columnType, x.characterLength, x.numericPrecision,
    x.numericScale, x.domainName, x.referencesSchema, x.referencesTable, x.referencesColumn,
    x.updateRule, x.deleteRule, x.columnIdentity, x.columnDefault, x.generatedExpr,
    x.collationName, x.comment]

/-- The texts of a value of the type of /repo/ddl/ddl.go:410-489. -/
def constraintTexts (x : Constraint) : List Str :=
  [x.tableSchema, x.tableName, x.constraintName, x.constraintType, x.referencesSchema,
    x.referencesTable, x.updateRule, x.deleteRule, x.matchOption, x.checkExpr,
    x.exclusionIndexType, x.exclusionPredicate, x.comment] ++
  x.columns ++
  x.referencesColumns ++
  x.exclusionOperators

/-- The texts of a value of the type of /repo/ddl/ddl.go:492-536. -/
def indexTexts (x : Index) : List Str :=
  [x.tableSchema, x.tableName, x.indexName, x.indexType, x.predicate, x.sql, x.comment] ++
  x.columns ++
  x.includeColumns ++
  x.opclasses

/-- The texts of a value of the type of /repo/ddl/ddl.go:539-564. -/
def triggerTexts (x : Trigger) : List Str :=
  [x.tableSchema, x.tableName, x.triggerName, x.sql, x.comment] ++
  (x.attrs.flatMap fun p => [p.1, p.2])

/-- The maps of a value of the type of /repo/ddl/ddl.go:539-564. -/
def triggerMaps (x : Trigger) : List (List (Str × Str)) :=
  [x.attrs]

/-- The texts of a value of the type of /repo/ddl/ddl.go:214-249. -/
def viewTexts (x : View) : List Str :=
  [x.viewSchema, x.viewName, x.sql, x.comment] ++
  x.columns ++
  x.columnTypes ++
  x.enumColumns ++
  (x.indexes.flatMap indexTexts) ++
  (x.triggers.flatMap triggerTexts)

/-- The maps of a value of the type of /repo/ddl/ddl.go:214-249. -/
def viewMaps (x : View) : List (List (Str × Str)) :=
  x.triggers.flatMap triggerMaps

/-- The texts of a value of the type of /repo/ddl/ddl.go:252-283. -/
def tableTexts (x : Table) : List Str :=
  [x.tableSchema, x.tableName, x.sql, x.comment] ++
  (x.columns.flatMap columnTexts) ++
  (x.constraints.flatMap constraintTexts) ++
  (x.indexes.flatMap indexTexts) ++
  (x.triggers.flatMap triggerTexts)

/-- The maps of a value of the type of /repo/ddl/ddl.go:252-283. -/
def tableMaps (x : Table) : List (List (Str × Str)) :=
  x.triggers.flatMap triggerMaps

/-- The texts of a value of the type of /repo/ddl/ddl.go:88-126. -/
def schemaTexts (x : Schema) : List Str :=
  [x.schemaName, x.comment] ++
  (x.tables.flatMap tableTexts) ++
  (x.views.flatMap viewTexts) ++
  (x.routines.flatMap routineTexts) ++
  (x.enums.flatMap enumTexts) ++
  (x.domains.flatMap domainTexts)

/-- The maps of a value of the type of /repo/ddl/ddl.go:88-126. -/
def schemaMaps (x : Schema) : List (List (Str × Str)) :=
  x.tables.flatMap tableMaps ++ x.views.flatMap viewMaps ++ x.routines.flatMap routineMaps

/-- The texts of a value of the type of /repo/ddl/ddl.go:52-85. -/
def catalogTexts (x : Catalog) : List Str :=
  [x.dialect, x.catalogName, x.currentSchema, x.defaultCollation] ++
  x.extensions ++
  (x.schemas.flatMap schemaTexts)

/-- The maps of a value of the type of /repo/ddl/ddl.go:52-85. -/
def catalogMaps (x : Catalog) : List (List (Str × Str)) :=
  x.schemas.flatMap schemaMaps

/-- A map is given as the list of its entries in the order of the keys, each of which is there once. -/
def Sorted (m : List (Str × Str)) : Prop := m.Pairwise fun a b => a.1 < b.1

/-- The texts are in UTF-8, and the maps are given in the order of their keys. -/
def Written (c : Catalog) : Prop :=
  (∀ s ∈ catalogTexts c, JsonText.Utf8 s) ∧ ∀ m ∈ catalogMaps c, Sorted m

end CatalogTexts
