import Verif.Model.CacheOps

/-!
# Copying a catalog: `(*Catalog).WriteCatalog`

/repo/ddl/catalog_cache.go:804-917.  `cloneSlice` and `cloneMap` (919-940) do not change values;
whether the copy shares memory with the source is not modelled.
-/

namespace Sqddl

/-- `for _, x := range xs { … }` where the body changes the cache and the destination. -/
def writeList {D S : Type} (step : CatalogCache → D → S → Option (D × CatalogCache)) :
    CatalogCache → D → List S → Option (D × CatalogCache)
  | c, d, [] => some (d, c)
  | c, d, x :: r => (step c d x).bind fun p => writeList step p.2 p.1 r

/-- `*p = f(*p)` for the pointer to position `i` of a slice. -/
def assignAt {α : Type} (xs : List α) (i : Nat) (f : α → α) : List α :=
  xs[i]?.elim xs fun a => xs.set i (f a)

/-- /repo/ddl/catalog_cache.go:827-834 -/
def writeEnum (c : CatalogCache) (d : Schema) (x : Enum) : Option (Schema × CatalogCache) :=
  (c.getOrCreateEnum d x.enumName).map fun r =>
    ({ r.1 with
        enums := assignAt r.1.enums r.2.2 fun e =>
          { e with
            enumSchema := x.enumSchema
            enumName := x.enumName
            enumLabels := x.enumLabels
            comment := x.comment
            ignore := x.ignore } },
      r.2.1)

/-- /repo/ddl/catalog_cache.go:836-848 -/
def writeDomain (c : CatalogCache) (d : Schema) (x : Domain) : Option (Schema × CatalogCache) :=
  (c.getOrCreateDomain d x.domainName).map fun r =>
    ({ r.1 with
        domains := assignAt r.1.domains r.2.2 fun e =>
          { e with
            domainSchema := x.domainSchema
            domainName := x.domainName
            underlyingType := x.underlyingType
            collationName := x.collationName
            isNotNull := x.isNotNull
            columnDefault := x.columnDefault
            checkNames := x.checkNames
            checkExprs := x.checkExprs
            comment := x.comment
            ignore := x.ignore } },
      r.2.1)

/-- /repo/ddl/catalog_cache.go:850-860 -/
def writeRoutine (c : CatalogCache) (d : Schema) (x : Routine) : Option (Schema × CatalogCache) :=
  (c.getOrCreateRoutine d x.routineName x.identityArguments).map fun r =>
    ({ r.1 with
        routines := assignAt r.1.routines r.2.2 fun e =>
          { e with
            routineType := x.routineType
            routineSchema := x.routineSchema
            routineName := x.routineName
            identityArguments := x.identityArguments
            sql := x.sql
            comment := x.comment
            ignore := x.ignore
            attrs := x.attrs } },
      r.2.1)

/-- /repo/ddl/catalog_cache.go:873-878 -/
def writeViewIndex (c : CatalogCache) (d : View) (x : Index) : Option (View × CatalogCache) :=
  (c.getOrCreateViewIndex d x.indexName x.columns).map fun r =>
    ({ r.1 with indexes := assignAt r.1.indexes r.2.2 fun _ => x }, r.2.1)

/-- /repo/ddl/catalog_cache.go:879-883 -/
def writeViewTrigger (c : CatalogCache) (d : View) (x : Trigger) : Option (View × CatalogCache) :=
  (c.getOrCreateViewTrigger d x.triggerName).map fun r =>
    ({ r.1 with triggers := assignAt r.1.triggers r.2.2 fun _ => x }, r.2.1)

/-- /repo/ddl/catalog_cache.go:864-883: the view that `GetOrCreateView` gave -/
def writeViewBody (c : CatalogCache) (d : View) (x : View) : Option (View × CatalogCache) :=
  (writeList writeViewIndex c
    { d with
      viewSchema := x.viewSchema
      viewName := x.viewName
      isMaterialized := x.isMaterialized
      sql := x.sql
      columns := x.columns
      columnTypes := x.columnTypes
      enumColumns := x.enumColumns
      comment := x.comment
      ignore := x.ignore }
    x.indexes).bind fun p =>
  writeList writeViewTrigger p.2 p.1 x.triggers

/-- /repo/ddl/catalog_cache.go:862-884 -/
def writeView (c : CatalogCache) (d : Schema) (x : View) : Option (Schema × CatalogCache) :=
  (c.getOrCreateView d x.viewName).bind fun r =>
    r.1.views[r.2.2]?.bind fun v => (writeViewBody r.2.1 v x).map fun p =>
      ({ r.1 with views := r.1.views.set r.2.2 p.1 }, p.2)

/-- /repo/ddl/catalog_cache.go:893-896 -/
def writeColumn (c : CatalogCache) (d : Table) (x : Column) : Option (Table × CatalogCache) :=
  (c.getOrCreateColumn d x.columnName x.columnType).map fun r =>
    ({ r.1 with columns := assignAt r.1.columns r.2.2 fun _ => x }, r.2.1)

/-- /repo/ddl/catalog_cache.go:897-903 -/
def writeConstraint (c : CatalogCache) (d : Table) (x : Constraint) :
    Option (Table × CatalogCache) :=
  (c.getOrCreateConstraint d x.constraintName x.constraintType x.columns).map fun r =>
    ({ r.1 with constraints := assignAt r.1.constraints r.2.2 fun _ => x }, r.2.1)

/-- /repo/ddl/catalog_cache.go:904-911 -/
def writeIndex (c : CatalogCache) (d : Table) (x : Index) : Option (Table × CatalogCache) :=
  (c.getOrCreateIndex d x.indexName x.columns).map fun r =>
    ({ r.1 with indexes := assignAt r.1.indexes r.2.2 fun _ => x }, r.2.1)

/-- /repo/ddl/catalog_cache.go:912-916 -/
def writeTrigger (c : CatalogCache) (d : Table) (x : Trigger) : Option (Table × CatalogCache) :=
  (c.getOrCreateTrigger d x.triggerName).map fun r =>
    ({ r.1 with triggers := assignAt r.1.triggers r.2.2 fun _ => x }, r.2.1)

/-- /repo/ddl/catalog_cache.go:888-916: the table that `GetOrCreateTable` gave; `IsVirtual` is not
copied -/
def writeTableBody (c : CatalogCache) (d : Table) (x : Table) : Option (Table × CatalogCache) :=
  (writeList writeColumn c
    { d with
      tableSchema := x.tableSchema
      tableName := x.tableName
      sql := x.sql
      comment := x.comment
      ignore := x.ignore }
    x.columns).bind fun p =>
  (writeList writeConstraint p.2 p.1 x.constraints).bind fun p =>
  (writeList writeIndex p.2 p.1 x.indexes).bind fun p =>
  writeList writeTrigger p.2 p.1 x.triggers

/-- /repo/ddl/catalog_cache.go:886-917 -/
def writeTable (c : CatalogCache) (d : Schema) (x : Table) : Option (Schema × CatalogCache) :=
  (c.getOrCreateTable d x.tableName).bind fun r =>
    r.1.tables[r.2.2]?.bind fun t => (writeTableBody r.2.1 t x).map fun p =>
      ({ r.1 with tables := r.1.tables.set r.2.2 p.1 }, p.2)

/-- /repo/ddl/catalog_cache.go:819-917: the schema that `GetOrCreateSchema` gave -/
def writeSchemaBody (c : CatalogCache) (d : Schema) (x : Schema) : Option (Schema × CatalogCache) :=
  (writeList writeEnum c
    { d with
      schemaName := x.schemaName
      comment := x.comment
      ignore := x.ignore
      enumsValid := x.enumsValid
      domainsValid := x.domainsValid
      routinesValid := x.routinesValid
      viewsValid := x.viewsValid }
    x.enums).bind fun p =>
  (writeList writeDomain p.2 p.1 x.domains).bind fun p =>
  (writeList writeRoutine p.2 p.1 x.routines).bind fun p =>
  (writeList writeView p.2 p.1 x.views).bind fun p =>
  writeList writeTable p.2 p.1 x.tables

/-- /repo/ddl/catalog_cache.go:817-917 -/
def writeSchema (c : CatalogCache) (d : Catalog) (x : Schema) : Option (Catalog × CatalogCache) :=
  (c.getOrCreateSchema d x.schemaName).bind fun r =>
    r.1.schemas[r.2.2]?.bind fun s => (writeSchemaBody r.2.1 s x).map fun p =>
      ({ r.1 with schemas := r.1.schemas.set r.2.2 p.1 }, p.2)

/-- /repo/ddl/catalog_cache.go:806-917 `WriteCatalog`; `none` is a panic -/
def writeCatalog (src dest : Catalog) : Option Catalog :=
  (writeList writeSchema (newCatalogCache dest)
    { dest with
      dialect := src.dialect
      versionNums := src.versionNums
      catalogName := src.catalogName
      currentSchema := src.currentSchema
      defaultCollation := src.defaultCollation
      extensions := src.extensions
      defaultCollationValid := src.defaultCollationValid
      extensionsValid := src.extensionsValid }
    src.schemas).map (·.1)

end Sqddl
