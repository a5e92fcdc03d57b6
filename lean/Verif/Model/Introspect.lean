import Verif.Model.IntrospectRows
import Verif.Model.WriteCatalog

/-!
# Introspecting a database: `(*DatabaseIntrospector).WriteCatalog`

/repo/ddl/database_introspector.go:46-267.  The answers of the database are an oracle: for each
query the rows it gives (see `Verif.Model.IntrospectRows`).  Of `dbi.Filter` only the object types
are used here; the other filters are part of the queries.
-/

namespace Sqddl.Introspect
open Go

/-- What the database answers: `none` is an error of the query (or of scanning its only row). -/
structure Server where
  version : Option Str := some []
  databaseName : Option Str := some []
  currentSchema : Option Str := some []
  defaultCollation : Option Str := some []
  extensions : Option (Answer Str) := some {}
  enums : Option (Answer Enum) := some {}
  domains : Option (Answer Domain) := some {}
  routines : Option (Answer RoutineRow) := some {}
  views : Option (Answer ViewRow) := some {}
  tables : Option (Answer Table) := some {}
  columns : Option (Answer Column) := some {}
  constraints : Option (Answer ConstraintRow) := some {}
  indexes : Option (Answer IndexRow) := some {}
  triggers : Option (Answer TriggerRow) := some {}

/-! ## The queries -/

/-- /repo/ddl/database_introspector.go:933-952 `GetExtensions` -/
def getExtensions (d : Dialect) (s : Server) : Res (List Str) :=
  if d = .postgres then query some s.extensions else .ok []

/-- /repo/ddl/database_introspector.go:900-925 `GetEnums` -/
def getEnums (d : Dialect) (s : Server) : Res (List Enum) :=
  if d = .postgres then query (fun r => some (scanEnum r)) s.enums else .ok []

/-- /repo/ddl/database_introspector.go:838-889 `GetDomains` -/
def getDomains (d : Dialect) (s : Server) : Res (List Domain) :=
  if d = .postgres then query (fun r => some (scanDomain r)) s.domains else .ok []

/-- /repo/ddl/database_introspector.go:1140-1232 `GetRoutines` -/
def getRoutines (d : Dialect) (s : Server) : Res (List Routine) :=
  if d = .sqlite then .ok []
  else if supported d then query (fun r => some (scanRoutine d r)) s.routines else .err

/-- /repo/ddl/database_introspector.go:1400-1494 `GetViews` -/
def getViews (d : Dialect) (s : Server) : Res (List View) :=
  if supported d then query (fun r => some (scanView d r)) s.views else .err

/-- /repo/ddl/database_introspector.go:1246-1299 `GetTables` -/
def getTables (d : Dialect) (s : Server) : Res (List Table) :=
  if supported d then query (fun r => some (scanTable d r)) s.tables else .err

/-- /repo/ddl/database_introspector.go:445-647 `GetColumns` -/
def getColumns (isFloat : Str → Bool) (d : Dialect) (s : Server) : Res (List Column) :=
  if supported d then query (scanColumn isFloat d) s.columns else .err

/-- /repo/ddl/database_introspector.go:659-827 `GetConstraints` -/
def getConstraints (d : Dialect) (s : Server) : Res (List Constraint) :=
  if supported d then query (fun r => some (scanConstraint d r)) s.constraints else .err

/-- /repo/ddl/database_introspector.go:959-1129 `GetIndexes`; the version that MySQL is asked for
again (977-983) is part of the query. -/
def getIndexes (d : Dialect) (s : Server) : Res (List Index) :=
  if supported d then query (scanIndex d) s.indexes else .err

/-- /repo/ddl/database_introspector.go:1306-1389 `GetTriggers`; the error that ends the rows is not
looked at (1388). -/
def getTriggers (d : Dialect) (s : Server) : Res (List Trigger) :=
  if supported d then
    match s.triggers with
    | none => .err
    | some a => readRows (fun r => some (scanTrigger d r)) a.rows
  else .err

/-! ## The catalog -/

/-- `schema := cache.GetOrCreateSchema(catalog, name)`, and what is done with the schema. -/
def orCreateSchema (name : Str) (f : CatalogCache → Schema → Option (Schema × CatalogCache))
    (c : CatalogCache) (cat : Catalog) : Option (Catalog × CatalogCache) :=
  (c.getOrCreateSchema cat name).bind fun p =>
    p.1.schemas[p.2.2]?.bind fun s =>
      (f p.2.1 s).map fun r => ({ p.1 with schemas := p.1.schemas.set p.2.2 r.1 }, r.2)

/-- `schema := cache.GetSchema(catalog, name); if schema == nil { continue }`, and what is done with
the schema. -/
def inSchema (name : Str) (f : CatalogCache → Schema → Option (Schema × CatalogCache))
    (c : CatalogCache) (cat : Catalog) : Option (Catalog × CatalogCache) :=
  (slot (·.ignore) cat.schemas (c.schemas.get name)).bind fun p =>
    p.elim (some (cat, c)) fun i =>
      cat.schemas[i]?.bind fun s =>
        (f c s).map fun r => ({ cat with schemas := cat.schemas.set i r.1 }, r.2)

/-- `table := cache.GetTable(schema, name); if table == nil { continue }`, and what is done with
the table. -/
def inTable (name : Str) (f : CatalogCache → Table → Option (Table × CatalogCache))
    (c : CatalogCache) (s : Schema) : Option (Schema × CatalogCache) :=
  (slot (·.ignore) s.tables (c.tables.get (s.schemaName, name))).bind fun p =>
    p.elim (some (s, c)) fun i =>
      s.tables[i]?.bind fun t =>
        (f c t).map fun r => ({ s with tables := s.tables.set i r.1 }, r.2)

/-- `table := cache.GetOrCreateTable(schema, name)`, and what is done with the table. -/
def orCreateTable (name : Str) (f : CatalogCache → Table → Option (Table × CatalogCache))
    (c : CatalogCache) (s : Schema) : Option (Schema × CatalogCache) :=
  (c.getOrCreateTable s name).bind fun p =>
    p.1.tables[p.2.2]?.bind fun t =>
      (f p.2.1 t).map fun r => ({ p.1 with tables := p.1.tables.set p.2.2 r.1 }, r.2)

/-- `view := cache.GetView(schema, name); if view == nil { continue }`, and what is done with the
view. -/
def inView (name : Str) (f : CatalogCache → View → Option (View × CatalogCache))
    (c : CatalogCache) (s : Schema) : Option (Schema × CatalogCache) :=
  (slot (·.ignore) s.views (c.views.get (s.schemaName, name))).bind fun p =>
    p.elim (some (s, c)) fun i =>
      s.views[i]?.bind fun v =>
        (f c v).map fun r => ({ s with views := s.views.set i r.1 }, r.2)

/-- /repo/ddl/database_introspector.go:102-106 -/
def addEnum (c : CatalogCache) (cat : Catalog) (x : Enum) : Option (Catalog × CatalogCache) :=
  orCreateSchema x.enumSchema (fun c s => c.addOrUpdateEnum { s with enumsValid := true } x) c cat

/-- /repo/ddl/database_introspector.go:114-118 -/
def addDomain (c : CatalogCache) (cat : Catalog) (x : Domain) : Option (Catalog × CatalogCache) :=
  orCreateSchema x.domainSchema
    (fun c s => c.addOrUpdateDomain { s with domainsValid := true } x) c cat

/-- /repo/ddl/database_introspector.go:126-130 -/
def addRoutine (c : CatalogCache) (cat : Catalog) (x : Routine) :
    Option (Catalog × CatalogCache) :=
  orCreateSchema x.routineSchema
    (fun c s => c.addOrUpdateRoutine { s with routinesValid := true } x) c cat

/-- /repo/ddl/database_introspector.go:138-143 -/
def addView (c : CatalogCache) (cat : Catalog) (x : View) : Option (Catalog × CatalogCache) :=
  orCreateSchema x.viewSchema (fun c s => c.addOrUpdateView { s with viewsValid := true } x) c cat

/-- /repo/ddl/database_introspector.go:151-154 -/
def addTable (c : CatalogCache) (cat : Catalog) (x : Table) : Option (Catalog × CatalogCache) :=
  orCreateSchema x.tableSchema (fun c s => c.addOrUpdateTable s x) c cat

/-- /repo/ddl/database_introspector.go:160-171 -/
def addColumn (c : CatalogCache) (cat : Catalog) (x : Column) : Option (Catalog × CatalogCache) :=
  inSchema x.tableSchema (inTable x.tableName fun c t => c.addOrUpdateColumn t x) c cat

/-- /repo/ddl/database_introspector.go:177-187 -/
def addConstraint (c : CatalogCache) (cat : Catalog) (x : Constraint) :
    Option (Catalog × CatalogCache) :=
  inSchema x.tableSchema (orCreateTable x.tableName fun c t => c.addOrUpdateConstraint t x) c cat

/-- /repo/ddl/database_introspector.go:195-213 -/
def addIndex (c : CatalogCache) (cat : Catalog) (x : Index) : Option (Catalog × CatalogCache) :=
  inSchema x.tableSchema
    (if x.isViewIndex then inView x.tableName fun c v => c.addOrUpdateViewIndex v x
     else inTable x.tableName fun c t => c.addOrUpdateIndex t x) c cat

/-- /repo/ddl/database_introspector.go:219-237 -/
def addTrigger (c : CatalogCache) (cat : Catalog) (x : Trigger) :
    Option (Catalog × CatalogCache) :=
  inSchema x.tableSchema
    (if x.isViewTrigger then inView x.tableName fun c v => c.addOrUpdateViewTrigger v x
     else inTable x.tableName fun c t => c.addOrUpdateTrigger t x) c cat

/-! ## Marking columns -/

/-- /repo/ddl/database_introspector.go:249-262; `constraint.ReferencesColumns[0]` of an empty list
is a panic. -/
def markColumn (k : Constraint) (x : Column) : Option Column :=
  if k.constraintType = PRIMARY_KEY then some { x with isPrimaryKey := true }
  else if k.constraintType = UNIQUE then some { x with isUnique := true }
  else k.referencesColumns.head?.map fun r =>
    { x with
      referencesSchema := k.referencesSchema
      referencesTable := k.referencesTable
      referencesColumn := r
      updateRule := k.updateRule
      deleteRule := k.deleteRule
      isDeferrable := k.isDeferrable
      isInitiallyDeferred := k.isInitiallyDeferred }

/-- /repo/ddl/database_introspector.go:245-262: one constraint.  `table` is a copy of the table, but
its columns are those of the table.  A column that is not found is a nil pointer, a panic. -/
def markConstraint (c : CatalogCache) (t : Table) (k : Constraint) : Option Table :=
  match k.columns with
  | [name] =>
    if k.constraintType = PRIMARY_KEY ∨ k.constraintType = UNIQUE ∨ k.constraintType = FOREIGN_KEY then
      (slot (·.ignore) t.columns (c.columns.get (t.tableSchema, t.tableName, name))).bind fun p =>
        p.elim none fun i => t.columns[i]?.bind fun x =>
          (markColumn k x).map fun x' => { t with columns := t.columns.set i x' }
    else some t
  | _ => some t

/-- /repo/ddl/database_introspector.go:244-263 -/
def markTable (c : CatalogCache) (t : Table) : Option Table :=
  t.constraints.foldlM (markConstraint c) t

/-- /repo/ddl/database_introspector.go:242-265 -/
def markCatalog (c : CatalogCache) (cat : Catalog) : Option Catalog :=
  (cat.schemas.mapM fun (s : Schema) =>
    (s.tables.mapM (markTable c)).map fun ts => { s with tables := ts }).map fun ss =>
      { cat with schemas := ss }

/-! ## WriteCatalog -/

/-- /repo/ddl/database_introspector.go:52-62 `includeObjectType` -/
def includeObjectType (types : List Str) (t : Str) : Bool := types.isEmpty || types.contains t

/-- The name of a dialect: /repo/ddl/ddl.go:39-46. -/
def dialectName : Dialect → Str
  | .sqlite => b!"sqlite"
  | .postgres => b!"postgres"
  | .mysql => b!"mysql"
  | .sqlserver => b!"sqlserver"
  | .oracle => b!"oracle"
  | .other => b!"other"

/-- The catalog with its cache, changed for every object that the query gives. -/
def addAll {α : Type} (get : Res (List α))
    (add : CatalogCache → Catalog → α → Option (Catalog × CatalogCache))
    (p : Catalog × CatalogCache) : Res (Catalog × CatalogCache) :=
  get.bind fun xs => Res.of (writeList add p.2 p.1 xs)

/-- `if cond { … }` -/
def onlyIf (cond : Bool) (f : Catalog × CatalogCache → Res (Catalog × CatalogCache))
    (p : Catalog × CatalogCache) : Res (Catalog × CatalogCache) :=
  if cond then f p else .ok p

/-- /repo/ddl/database_introspector.go:47-50, 64-84 -/
def writeHeader (d : Dialect) (s : Server) (cat : Catalog) : Res Catalog :=
  let cat := if cat.dialect = [] then { cat with dialect := dialectName d } else cat
  (getVersionNums d s.version).bind fun nums =>
  (getName d s.databaseName).bind fun name =>
  (getName d s.currentSchema).bind fun cur =>
  (getName d s.defaultCollation).bind fun coll =>
    .ok { cat with versionNums := nums, catalogName := name, currentSchema := cur
                   defaultCollation := coll, defaultCollationValid := true }

/-- /repo/ddl/database_introspector.go:86-95 -/
def writeExtensions (d : Dialect) (s : Server) (p : Catalog × CatalogCache) :
    Res (Catalog × CatalogCache) :=
  (getExtensions d s).bind fun xs =>
    if xs = [] then .ok p
    else .ok ({ p.1 with extensions := p.1.extensions ++ xs, extensionsValid := true }, p.2)

/-- /repo/ddl/database_introspector.go:46-267 `WriteCatalog` -/
def writeCatalog (isFloat : Str → Bool) (d : Dialect) (types : List Str) (s : Server)
    (cat : Catalog) : Res Catalog :=
  let inc := includeObjectType types
  (writeHeader d s cat).bind fun cat =>
  (onlyIf (inc b!"EXTENSIONS") (writeExtensions d s) (cat, newCatalogCache cat)).bind fun p =>
  (onlyIf (inc b!"ENUMS") (addAll (getEnums d s) addEnum) p).bind fun p =>
  (onlyIf (inc b!"DOMAINS") (addAll (getDomains d s) addDomain) p).bind fun p =>
  (onlyIf (inc b!"ROUTINES") (addAll (getRoutines d s) addRoutine) p).bind fun p =>
  (onlyIf (inc b!"VIEWS") (addAll (getViews d s) addView) p).bind fun p =>
  (onlyIf (inc b!"TABLES") (addAll (getTables d s) addTable) p).bind fun p =>
  (onlyIf (inc b!"TABLES") (addAll (getColumns isFloat d s) addColumn) p).bind fun p =>
  (onlyIf (inc b!"TABLES") (addAll (getConstraints d s) addConstraint) p).bind fun p =>
  (onlyIf (inc b!"TABLES" || inc b!"VIEWS") (addAll (getIndexes d s) addIndex) p).bind fun p =>
  (onlyIf (inc b!"TABLES" || inc b!"VIEWS") (addAll (getTriggers d s) addTrigger) p).bind fun p =>
    Res.of (markCatalog p.2 p.1)

end Sqddl.Introspect
