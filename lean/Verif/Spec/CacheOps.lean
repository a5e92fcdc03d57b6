import Verif.Model.CacheOps

/-!
# Changing a catalog by searching its lists

What the calls of /repo/ddl/catalog_cache.go should do, without a cache.
-/

namespace CacheSpec
open Sqddl

variable {α : Type}

/-- Append the object if there is none. -/
def ensure (has : α → Bool) (new : α) (xs : List α) : List α :=
  if xs.any has then xs else xs ++ [new]

/-- Replace the object, or append it if there is none. -/
def upsert (has : α → Bool) (new : α) (xs : List α) : List α :=
  if xs.any has then xs.map fun x => if has x then new else x else xs ++ [new]

/-- The effect of a call on a table. -/
def onTable (t : Table) : TableCall → Table
  | .getOrCreateColumn n ty => { t with
      columns := ensure (·.columnName == n)
        { tableSchema := t.tableSchema, tableName := t.tableName, columnName := n, columnType := ty }
        t.columns }
  | .addOrUpdateColumn x => { t with
      columns := upsert (·.columnName == x.columnName)
        { x with tableSchema := t.tableSchema, tableName := t.tableName } t.columns }
  | .getOrCreateConstraint n ty cs => { t with
      constraints := ensure (·.constraintName == n)
        { tableSchema := t.tableSchema, tableName := t.tableName, constraintName := n,
          constraintType := ty, columns := cs } t.constraints }
  | .addOrUpdateConstraint x => { t with
      constraints :=
        upsert (·.constraintName == x.constraintName)
        { x with tableSchema := t.tableSchema, tableName := t.tableName } t.constraints }
  | .getOrCreateIndex n cs => { t with
      indexes := ensure (·.indexName == n)
        { tableSchema := t.tableSchema, tableName := t.tableName, indexName := n, columns := cs }
        t.indexes }
  | .addOrUpdateIndex x => { t with
      indexes := upsert (·.indexName == x.indexName)
        { x with tableSchema := t.tableSchema, tableName := t.tableName } t.indexes }
  | .getOrCreateTrigger n => { t with
      triggers := ensure (·.triggerName == n)
        { tableSchema := t.tableSchema, tableName := t.tableName, triggerName := n } t.triggers }
  | .addOrUpdateTrigger x => { t with
      triggers := upsert (·.triggerName == x.triggerName)
        { x with tableSchema := t.tableSchema, tableName := t.tableName } t.triggers }

/-- The effect of a call on a view. -/
def onView (v : View) : ViewCall → View
  | .getOrCreateIndex n cs => { v with
      indexes := ensure (·.indexName == n)
        { tableSchema := v.viewSchema, tableName := v.viewName, indexName := n, columns := cs }
        v.indexes }
  | .addOrUpdateIndex x => { v with
      indexes := upsert (·.indexName == x.indexName)
        { x with tableSchema := v.viewSchema, tableName := v.viewName } v.indexes }
  | .getOrCreateTrigger n => { v with
      triggers := ensure (·.triggerName == n)
        { tableSchema := v.viewSchema, tableName := v.viewName, triggerName := n } v.triggers }
  | .addOrUpdateTrigger x => { v with
      triggers := upsert (·.triggerName == x.triggerName)
        { x with tableSchema := v.viewSchema, tableName := v.viewName } v.triggers }

/-- The effect of a call on a schema. -/
def onSchema (s : Schema) : SchemaCall → Schema
  | .getOrCreateEnum n => { s with
      enums := ensure (·.enumName == n)
        { enumSchema := s.schemaName, enumName := n } s.enums }
  | .addOrUpdateEnum x => { s with
      enums := upsert (·.enumName == x.enumName)
        { x with enumSchema := s.schemaName } s.enums }
  | .getOrCreateDomain n => { s with
      domains := ensure (·.domainName == n)
        { domainSchema := s.schemaName, domainName := n } s.domains }
  | .addOrUpdateDomain x => { s with
      domains := upsert (·.domainName == x.domainName)
        { x with domainSchema := s.schemaName } s.domains }
  | .getOrCreateRoutine n a => { s with
      routines :=
        ensure (fun x => x.routineName == n && x.identityArguments == a)
        { routineSchema := s.schemaName, routineName := n, identityArguments := a } s.routines }
  | .addOrUpdateRoutine x => { s with
      routines :=
        upsert (fun y => y.routineName == x.routineName &&
          y.identityArguments == x.identityArguments)
        { x with routineSchema := s.schemaName } s.routines }
  | .getOrCreateView n => { s with
      views := ensure (·.viewName == n)
        { viewSchema := s.schemaName, viewName := n } s.views }
  | .addOrUpdateView x => { s with
      views := upsert (·.viewName == x.viewName)
        { x with viewSchema := s.schemaName } s.views }
  | .getOrCreateTable n => { s with
      tables := ensure (·.tableName == n)
        { tableSchema := s.schemaName, tableName := n } s.tables }
  | .addOrUpdateTable x => { s with
      tables := upsert (·.tableName == x.tableName)
        { x with tableSchema := s.schemaName } s.tables }
  | .table j k => { s with tables := s.tables.modify j fun t => onTable t k }
  | .view j k => { s with views := s.views.modify j fun v => onView v k }

/-- The effect of a call on a catalog. -/
def onCatalog (cat : Catalog) : Call → Catalog
  | .getOrCreateSchema n => { cat with
      schemas := ensure (·.schemaName == n)
        { schemaName := n } cat.schemas }
  | .addOrUpdateSchema x => { cat with
      schemas := upsert (·.schemaName == x.schemaName) x
        cat.schemas }
  | .schema i k => { cat with schemas := cat.schemas.modify i fun s => onSchema s k }

/-- The effect of calls one after the other. -/
def onCatalogs (cat : Catalog) (ks : List Call) : Catalog := ks.foldl onCatalog cat

/-! ## Catalogs and calls for which names identify objects -/

/-- Nothing in the table is ignored, and constraints have names. -/
structure TableClean (t : Table) : Prop where
  ignore : t.ignore = false
  columns : ∀ x ∈ t.columns, x.ignore = false
  constraints : ∀ x ∈ t.constraints, x.ignore = false ∧ x.constraintName ≠ []
  indexes : ∀ x ∈ t.indexes, x.ignore = false
  triggers : ∀ x ∈ t.triggers, x.ignore = false

/-- Nothing in the view is ignored. -/
structure ViewClean (v : View) : Prop where
  ignore : v.ignore = false
  indexes : ∀ x ∈ v.indexes, x.ignore = false
  triggers : ∀ x ∈ v.triggers, x.ignore = false

/-- Nothing in the schema is ignored, tables and views know the name of their schema, no table has
the name of a view, and routines have arguments only on Postgres. -/
structure SchemaClean (postgres : Bool) (s : Schema) : Prop where
  ignore : s.ignore = false
  enums : ∀ x ∈ s.enums, x.ignore = false
  domains : ∀ x ∈ s.domains, x.ignore = false
  routines : ∀ x ∈ s.routines, x.ignore = false ∧ (postgres = true ∨ x.identityArguments = [])
  views : ∀ v ∈ s.views, v.viewSchema = s.schemaName ∧ ViewClean v
  tables : ∀ t ∈ s.tables, t.tableSchema = s.schemaName ∧ TableClean t
  apart : ∀ v ∈ s.views, ∀ t ∈ s.tables, v.viewName ≠ t.tableName

/-- Within the table, names are distinct. -/
structure TableDistinct (t : Table) : Prop where
  columns : (t.columns.map (·.columnName)).Nodup
  constraints : (t.constraints.map (·.constraintName)).Nodup
  indexes : (t.indexes.map (·.indexName)).Nodup
  triggers : (t.triggers.map (·.triggerName)).Nodup

/-- Within the view, names are distinct. -/
structure ViewDistinct (v : View) : Prop where
  indexes : (v.indexes.map (·.indexName)).Nodup
  triggers : (v.triggers.map (·.triggerName)).Nodup

/-- Within the schema, names are distinct. -/
structure SchemaDistinct (s : Schema) : Prop where
  enums : (s.enums.map (·.enumName)).Nodup
  domains : (s.domains.map (·.domainName)).Nodup
  routines : (s.routines.map fun r => (r.routineName, r.identityArguments)).Nodup
  views : (s.views.map (·.viewName)).Nodup
  tables : (s.tables.map (·.tableName)).Nodup
  ofViews : ∀ v ∈ s.views, ViewDistinct v
  ofTables : ∀ t ∈ s.tables, TableDistinct t

/-- In the catalog, every name occurs once. -/
structure Distinct (cat : Catalog) : Prop where
  schemas : (cat.schemas.map (·.schemaName)).Nodup
  ofSchemas : ∀ s ∈ cat.schemas, SchemaDistinct s

/-- Only materialized views have indexes, and only other views have triggers. -/
def ViewKinds (cat : Catalog) : Prop :=
  ∀ s ∈ cat.schemas, ∀ v ∈ s.views,
    if v.isMaterialized then v.triggers = [] else v.indexes = []

/-- The objects of a table, view, schema. -/
def tableObjects (t : Table) : List Column × List Constraint × List Index × List Trigger :=
  (t.columns, t.constraints, t.indexes, t.triggers)
@[inherit_doc tableObjects]
def viewObjects (v : View) : List Index × List Trigger := (v.indexes, v.triggers)
@[inherit_doc tableObjects]
def schemaObjects (s : Schema) :
    List Enum × List Domain × List Routine × List View × List Table :=
  (s.enums, s.domains, s.routines, s.views, s.tables)

/-- The given object is not ignored, and constraints have a name. -/
def TableCall.Allowed : TableCall → Prop
  | .addOrUpdateColumn x => x.ignore = false
  | .getOrCreateConstraint n _ _ => n ≠ []
  | .addOrUpdateConstraint x => x.ignore = false ∧ x.constraintName ≠ []
  | .addOrUpdateIndex x => x.ignore = false
  | .addOrUpdateTrigger x => x.ignore = false
  | _ => True

@[inherit_doc TableCall.Allowed]
def ViewCall.Allowed : ViewCall → Prop
  | .addOrUpdateIndex x => x.ignore = false
  | .addOrUpdateTrigger x => x.ignore = false
  | _ => True

/-- The given object is not ignored; no table gets the name of a view; a table or view that is
updated keeps the objects in it, and a new one has none; arguments of routines only on Postgres. -/
def SchemaCall.Allowed (postgres : Bool) (s : Schema) : SchemaCall → Prop
  | .addOrUpdateEnum x => x.ignore = false
  | .addOrUpdateDomain x => x.ignore = false
  | .getOrCreateRoutine _ a => postgres = true ∨ a = []
  | .addOrUpdateRoutine x => x.ignore = false ∧ (postgres = true ∨ x.identityArguments = [])
  | .getOrCreateView n => ∀ t ∈ s.tables, n ≠ t.tableName
  | .addOrUpdateView x => x.ignore = false ∧ (∀ t ∈ s.tables, x.viewName ≠ t.tableName) ∧
      (∀ v ∈ s.views, v.viewName = x.viewName → viewObjects x = viewObjects v) ∧
      ((∀ v ∈ s.views, v.viewName ≠ x.viewName) → viewObjects x = ([], []))
  | .getOrCreateTable n => ∀ v ∈ s.views, v.viewName ≠ n
  | .addOrUpdateTable x => x.ignore = false ∧ (∀ v ∈ s.views, v.viewName ≠ x.tableName) ∧
      (∀ t ∈ s.tables, t.tableName = x.tableName → tableObjects x = tableObjects t) ∧
      ((∀ t ∈ s.tables, t.tableName ≠ x.tableName) → tableObjects x = ([], [], [], []))
  | .table _ k => TableCall.Allowed k
  | .view _ k => ViewCall.Allowed k
  | _ => True

/-- The given schema is not ignored; a schema that is updated keeps the objects in it, and a new one
has none. -/
def Call.Allowed (postgres : Bool) (cat : Catalog) : Call → Prop
  | .getOrCreateSchema _ => True
  | .addOrUpdateSchema x => x.ignore = false ∧
      (∀ s ∈ cat.schemas, s.schemaName = x.schemaName → schemaObjects x = schemaObjects s) ∧
      ((∀ s ∈ cat.schemas, s.schemaName ≠ x.schemaName) →
        schemaObjects x = ([], [], [], [], []))
  | .schema i k => ∀ s, cat.schemas[i]? = some s → SchemaCall.Allowed postgres s k

/-- Every call is allowed in the catalog that the calls before it give. -/
def Allowed (postgres : Bool) : Catalog → List Call → Prop
  | _, [] => True
  | cat, k :: r => Call.Allowed postgres cat k ∧ Allowed postgres (onCatalog cat k) r

/-- `Get` gives the object of the name, or nil if there is none. -/
def Gives (g : Got α) (has : α → Bool) (xs : List α) : Prop :=
  g = (xs.find? has).elim .nil .found

/-- Every lookup through the cache finds what a search finds. -/
structure Faithful (c : CatalogCache) (cat : Catalog) : Prop where
  schema : ∀ n, Gives (c.getSchema cat n) (·.schemaName == n) cat.schemas
  enum : ∀ s ∈ cat.schemas, ∀ n, Gives (c.getEnum s n) (·.enumName == n) s.enums
  domain : ∀ s ∈ cat.schemas, ∀ n, Gives (c.getDomain s n) (·.domainName == n) s.domains
  routine : ∀ s ∈ cat.schemas, ∀ n a, (c.isPostgres = true ∨ a = []) →
    Gives (c.getRoutine s n a) (fun x => x.routineName == n && x.identityArguments == a) s.routines
  view : ∀ s ∈ cat.schemas, ∀ n, Gives (c.getView s n) (·.viewName == n) s.views
  table : ∀ s ∈ cat.schemas, ∀ n, Gives (c.getTable s n) (·.tableName == n) s.tables
  column : ∀ s ∈ cat.schemas, ∀ t ∈ s.tables, ∀ n,
    Gives (c.getColumn t n) (·.columnName == n) t.columns
  constraint : ∀ s ∈ cat.schemas, ∀ t ∈ s.tables, ∀ n,
    Gives (c.getConstraint t n) (·.constraintName == n) t.constraints
  index : ∀ s ∈ cat.schemas, ∀ t ∈ s.tables, ∀ n,
    Gives (c.getIndex t n) (·.indexName == n) t.indexes
  trigger : ∀ s ∈ cat.schemas, ∀ t ∈ s.tables, ∀ n,
    Gives (c.getTrigger t n) (·.triggerName == n) t.triggers
  viewIndex : ∀ s ∈ cat.schemas, ∀ v ∈ s.views, ∀ n,
    Gives (c.getViewIndex v n) (·.indexName == n) v.indexes
  viewTrigger : ∀ s ∈ cat.schemas, ∀ v ∈ s.views, ∀ n,
    Gives (c.getViewTrigger v n) (·.triggerName == n) v.triggers

end CacheSpec
