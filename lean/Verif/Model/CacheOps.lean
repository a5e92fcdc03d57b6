import Verif.Model.Catalog

/-!
# Changing a catalog through its cache

/repo/ddl/catalog_cache.go:131-802: the `Get`, `GetOrCreate` and `AddOrUpdate` functions.

A pointer into a slice of a catalog is modelled as the position in the slice.  An index out of
range, a panic in Go, is `none`.  Assigning a struct is modelled as assigning its value: `cloneSlice`
and `cloneMap` (/repo/ddl/catalog_cache.go:919-940) do not change values, and whether two catalogs
share memory is not modelled.
-/

namespace Sqddl

/-- `i, ok := m[key]; if ok && !xs[i].Ignore` of all the functions below: the position to use,
`some none` if an object has to be appended, `none` for an index out of range. -/
def slot {α : Type} (ignored : α → Bool) (xs : List α) (pos : Option Nat) : Option (Option Nat) :=
  pos.elim (some none) fun i => xs[i]?.map fun a => if ignored a then none else some i

/-- The body shared by the `GetOrCreate` functions (for instance
/repo/ddl/catalog_cache.go:137-148 GetOrCreateSchema): the list, the map and the position of the
object. -/
def getOrCreateIn {α K : Type} [DecidableEq K] (ignored : α → Bool) (new : α) (key : K)
    (xs : List α) (m : PosMap K) : Option (List α × PosMap K × Nat) :=
  (slot ignored xs (m.get key)).map fun p =>
    p.elim (xs ++ [new], m.set key xs.length, xs.length) fun i => (xs, m, i)

/-- The body shared by the `AddOrUpdate` functions (for instance
/repo/ddl/catalog_cache.go:152-161 AddOrUpdateSchema). -/
def addOrUpdateIn {α K : Type} [DecidableEq K] (ignored : α → Bool) (new : α) (key : K)
    (xs : List α) (m : PosMap K) : Option (List α × PosMap K) :=
  (slot ignored xs (m.get key)).map fun p =>
    p.elim (xs ++ [new], m.set key xs.length) fun i => (xs.set i new, m)

namespace CatalogCache

/-- /repo/ddl/catalog_cache.go:137-148 `GetOrCreateSchema` -/
def getOrCreateSchema (c : CatalogCache) (cat : Catalog) (name : Str) :
    Option (Catalog × CatalogCache × Nat) :=
  (getOrCreateIn (·.ignore) { schemaName := name } name cat.schemas c.schemas).map fun r =>
    ({ cat with schemas := r.1 }, { c with schemas := r.2.1 }, r.2.2)

/-- /repo/ddl/catalog_cache.go:152-161 `AddOrUpdateSchema` -/
def addOrUpdateSchema (c : CatalogCache) (cat : Catalog) (s : Schema) :
    Option (Catalog × CatalogCache) :=
  (addOrUpdateIn (·.ignore) s s.schemaName cat.schemas c.schemas).map fun r =>
    ({ cat with schemas := r.1 }, { c with schemas := r.2 })

/-- /repo/ddl/catalog_cache.go:169-178 `GetEnum` -/
def getEnum (c : CatalogCache) (s : Schema) (name : Str) : Got Enum :=
  getAt (·.ignore) s.enums (c.enums.get (s.schemaName, name))

/-- /repo/ddl/catalog_cache.go:186-198 `GetOrCreateEnum` -/
def getOrCreateEnum (c : CatalogCache) (s : Schema) (name : Str) :
    Option (Schema × CatalogCache × Nat) :=
  (getOrCreateIn (·.ignore) { enumSchema := s.schemaName, enumName := name } (s.schemaName, name)
    s.enums c.enums).map fun r => ({ s with enums := r.1 }, { c with enums := r.2.1 }, r.2.2)

/-- /repo/ddl/catalog_cache.go:202-212 `AddOrUpdateEnum` -/
def addOrUpdateEnum (c : CatalogCache) (s : Schema) (x : Enum) : Option (Schema × CatalogCache) :=
  (addOrUpdateIn (·.ignore) { x with enumSchema := s.schemaName } (s.schemaName, x.enumName)
    s.enums c.enums).map fun r => ({ s with enums := r.1 }, { c with enums := r.2 })

/-- /repo/ddl/catalog_cache.go:221-230 `GetDomain` -/
def getDomain (c : CatalogCache) (s : Schema) (name : Str) : Got Domain :=
  getAt (·.ignore) s.domains (c.domains.get (s.schemaName, name))

/-- /repo/ddl/catalog_cache.go:238-250 `GetOrCreateDomain` -/
def getOrCreateDomain (c : CatalogCache) (s : Schema) (name : Str) :
    Option (Schema × CatalogCache × Nat) :=
  (getOrCreateIn (·.ignore) { domainSchema := s.schemaName, domainName := name }
    (s.schemaName, name) s.domains c.domains).map fun r =>
      ({ s with domains := r.1 }, { c with domains := r.2.1 }, r.2.2)

/-- /repo/ddl/catalog_cache.go:254-264 `AddOrUpdateDomain` -/
def addOrUpdateDomain (c : CatalogCache) (s : Schema) (x : Domain) :
    Option (Schema × CatalogCache) :=
  (addOrUpdateIn (·.ignore) { x with domainSchema := s.schemaName } (s.schemaName, x.domainName)
    s.domains c.domains).map fun r => ({ s with domains := r.1 }, { c with domains := r.2 })

/-- /repo/ddl/catalog_cache.go:276-288 `GetRoutine` -/
def getRoutine (c : CatalogCache) (s : Schema) (name args : Str) : Got Routine :=
  getAt (·.ignore) s.routines
    (c.routines.get (s.schemaName, name, if c.isPostgres then args else []))

/-- /repo/ddl/catalog_cache.go:299-312 `GetOrCreateRoutine`; the identity arguments are not
cleared for dialects other than Postgres. -/
def getOrCreateRoutine (c : CatalogCache) (s : Schema) (name args : Str) :
    Option (Schema × CatalogCache × Nat) :=
  (getOrCreateIn (·.ignore)
    { routineSchema := s.schemaName, routineName := name, identityArguments := args }
    (s.schemaName, name, args) s.routines c.routines).map fun r =>
      ({ s with routines := r.1 }, { c with routines := r.2.1 }, r.2.2)

/-- /repo/ddl/catalog_cache.go:316-326 `AddOrUpdateRoutine` -/
def addOrUpdateRoutine (c : CatalogCache) (s : Schema) (x : Routine) :
    Option (Schema × CatalogCache) :=
  (addOrUpdateIn (·.ignore) { x with routineSchema := s.schemaName }
    (s.schemaName, x.routineName, x.identityArguments) s.routines c.routines).map fun r =>
      ({ s with routines := r.1 }, { c with routines := r.2 })

/-- /repo/ddl/catalog_cache.go:334-343 `GetView` -/
def getView (c : CatalogCache) (s : Schema) (name : Str) : Got View :=
  getAt (·.ignore) s.views (c.views.get (s.schemaName, name))

/-- /repo/ddl/catalog_cache.go:351-363 `GetOrCreateView` -/
def getOrCreateView (c : CatalogCache) (s : Schema) (name : Str) :
    Option (Schema × CatalogCache × Nat) :=
  (getOrCreateIn (·.ignore) { viewSchema := s.schemaName, viewName := name } (s.schemaName, name)
    s.views c.views).map fun r => ({ s with views := r.1 }, { c with views := r.2.1 }, r.2.2)

/-- /repo/ddl/catalog_cache.go:367-377 `AddOrUpdateView` -/
def addOrUpdateView (c : CatalogCache) (s : Schema) (x : View) : Option (Schema × CatalogCache) :=
  (addOrUpdateIn (·.ignore) { x with viewSchema := s.schemaName } (s.schemaName, x.viewName)
    s.views c.views).map fun r => ({ s with views := r.1 }, { c with views := r.2 })

/-- /repo/ddl/catalog_cache.go:402-414 `GetOrCreateTable` -/
def getOrCreateTable (c : CatalogCache) (s : Schema) (name : Str) :
    Option (Schema × CatalogCache × Nat) :=
  (getOrCreateIn (·.ignore) { tableSchema := s.schemaName, tableName := name }
    (s.schemaName, name) s.tables c.tables).map fun r =>
      ({ s with tables := r.1 }, { c with tables := r.2.1 }, r.2.2)

/-- /repo/ddl/catalog_cache.go:418-428 `AddOrUpdateTable` -/
def addOrUpdateTable (c : CatalogCache) (s : Schema) (x : Table) :
    Option (Schema × CatalogCache) :=
  (addOrUpdateIn (·.ignore) { x with tableSchema := s.schemaName } (s.schemaName, x.tableName)
    s.tables c.tables).map fun r => ({ s with tables := r.1 }, { c with tables := r.2 })

/-- /repo/ddl/catalog_cache.go:453-467 `GetOrCreateColumn` -/
def getOrCreateColumn (c : CatalogCache) (t : Table) (name type : Str) :
    Option (Table × CatalogCache × Nat) :=
  (getOrCreateIn (·.ignore)
    { tableSchema := t.tableSchema, tableName := t.tableName, columnName := name,
      columnType := type }
    (t.tableSchema, t.tableName, name) t.columns c.columns).map fun r =>
      ({ t with columns := r.1 }, { c with columns := r.2.1 }, r.2.2)

/-- /repo/ddl/catalog_cache.go:471-482 `AddOrUpdateColumn` -/
def addOrUpdateColumn (c : CatalogCache) (t : Table) (x : Column) :
    Option (Table × CatalogCache) :=
  (addOrUpdateIn (·.ignore) { x with tableSchema := t.tableSchema, tableName := t.tableName }
    (t.tableSchema, t.tableName, x.columnName) t.columns c.columns).map fun r =>
      ({ t with columns := r.1 }, { c with columns := r.2 })

/-- /repo/ddl/catalog_cache.go:521-527 and 547-553: a constraint that is appended is registered as
primary key or foreign key. -/
def registerKey (c : CatalogCache) (t : Table) (type : Str) : CatalogCache :=
  if type = PRIMARY_KEY then
    { c with pkeys := c.pkeys.set (t.tableSchema, t.tableName) t.constraints.length }
  else if type = FOREIGN_KEY then
    { c with fkeys := c.fkeys ++ [((t.tableSchema, t.tableName), t.constraints.length)] }
  else c

/-- /repo/ddl/catalog_cache.go:508-530 `GetOrCreateConstraint` -/
def getOrCreateConstraint (c : CatalogCache) (t : Table) (name type : Str) (columns : List Str) :
    Option (Table × CatalogCache × Nat) :=
  (slot (·.ignore) t.constraints (c.constraints.get (t.tableSchema, t.tableName, name))).map fun p =>
    p.elim
      ({ t with constraints := t.constraints ++
          [{ tableSchema := t.tableSchema, tableName := t.tableName, constraintName := name,
             constraintType := type, columns }] },
        { c.registerKey t type with
          constraints := c.constraints.set (t.tableSchema, t.tableName, name) t.constraints.length },
        t.constraints.length)
      fun i => (t, c, i)

/-- /repo/ddl/catalog_cache.go:534-557 `AddOrUpdateConstraint` -/
def addOrUpdateConstraint (c : CatalogCache) (t : Table) (x : Constraint) :
    Option (Table × CatalogCache) :=
  let x := { x with tableSchema := t.tableSchema, tableName := t.tableName }
  (slot (·.ignore) t.constraints
    (c.constraints.get (t.tableSchema, t.tableName, x.constraintName))).map fun p =>
    p.elim
      ({ t with constraints := t.constraints ++ [x] },
        { c.registerKey t x.constraintType with
          constraints :=
            if x.constraintName = [] then c.constraints
            else c.constraints.set (t.tableSchema, t.tableName, x.constraintName)
              t.constraints.length })
      fun i => ({ t with constraints := t.constraints.set i x }, c)

/-- /repo/ddl/catalog_cache.go:579-593 `GetOrCreateIndex` -/
def getOrCreateIndex (c : CatalogCache) (t : Table) (name : Str) (columns : List Str) :
    Option (Table × CatalogCache × Nat) :=
  (getOrCreateIn (·.ignore)
    { tableSchema := t.tableSchema, tableName := t.tableName, indexName := name, columns }
    (t.tableSchema, t.tableName, name) t.indexes c.indexes).map fun r =>
      ({ t with indexes := r.1 }, { c with indexes := r.2.1 }, r.2.2)

/-- /repo/ddl/catalog_cache.go:597-608 `AddOrUpdateIndex` -/
def addOrUpdateIndex (c : CatalogCache) (t : Table) (x : Index) : Option (Table × CatalogCache) :=
  (addOrUpdateIn (·.ignore) { x with tableSchema := t.tableSchema, tableName := t.tableName }
    (t.tableSchema, t.tableName, x.indexName) t.indexes c.indexes).map fun r =>
      ({ t with indexes := r.1 }, { c with indexes := r.2 })

/-- /repo/ddl/catalog_cache.go:617-626 `GetTrigger` -/
def getTrigger (c : CatalogCache) (t : Table) (name : Str) : Got Trigger :=
  getAt (·.ignore) t.triggers (c.triggers.get (t.tableSchema, t.tableName, name))

/-- /repo/ddl/catalog_cache.go:634-647 `GetOrCreateTrigger` -/
def getOrCreateTrigger (c : CatalogCache) (t : Table) (name : Str) :
    Option (Table × CatalogCache × Nat) :=
  (getOrCreateIn (·.ignore)
    { tableSchema := t.tableSchema, tableName := t.tableName, triggerName := name }
    (t.tableSchema, t.tableName, name) t.triggers c.triggers).map fun r =>
      ({ t with triggers := r.1 }, { c with triggers := r.2.1 }, r.2.2)

/-- /repo/ddl/catalog_cache.go:651-662 `AddOrUpdateTrigger` -/
def addOrUpdateTrigger (c : CatalogCache) (t : Table) (x : Trigger) :
    Option (Table × CatalogCache) :=
  (addOrUpdateIn (·.ignore) { x with tableSchema := t.tableSchema, tableName := t.tableName }
    (t.tableSchema, t.tableName, x.triggerName) t.triggers c.triggers).map fun r =>
      ({ t with triggers := r.1 }, { c with triggers := r.2 })

/-- /repo/ddl/catalog_cache.go:670-679 `GetViewIndex`; the map is the one of the indexes of
tables. -/
def getViewIndex (c : CatalogCache) (v : View) (name : Str) : Got Index :=
  getAt (·.ignore) v.indexes (c.indexes.get (v.viewSchema, v.viewName, name))

/-- /repo/ddl/catalog_cache.go:687-701 `GetOrCreateViewIndex` -/
def getOrCreateViewIndex (c : CatalogCache) (v : View) (name : Str) (columns : List Str) :
    Option (View × CatalogCache × Nat) :=
  (getOrCreateIn (·.ignore)
    { tableSchema := v.viewSchema, tableName := v.viewName, indexName := name, columns }
    (v.viewSchema, v.viewName, name) v.indexes c.indexes).map fun r =>
      ({ v with indexes := r.1 }, { c with indexes := r.2.1 }, r.2.2)

/-- /repo/ddl/catalog_cache.go:705-716 `AddOrUpdateViewIndex` -/
def addOrUpdateViewIndex (c : CatalogCache) (v : View) (x : Index) : Option (View × CatalogCache) :=
  (addOrUpdateIn (·.ignore) { x with tableSchema := v.viewSchema, tableName := v.viewName }
    (v.viewSchema, v.viewName, x.indexName) v.indexes c.indexes).map fun r =>
      ({ v with indexes := r.1 }, { c with indexes := r.2 })

/-- /repo/ddl/catalog_cache.go:724-733 `GetViewTrigger` -/
def getViewTrigger (c : CatalogCache) (v : View) (name : Str) : Got Trigger :=
  getAt (·.ignore) v.triggers (c.triggers.get (v.viewSchema, v.viewName, name))

/-- /repo/ddl/catalog_cache.go:741-754 `GetOrCreateViewTrigger` -/
def getOrCreateViewTrigger (c : CatalogCache) (v : View) (name : Str) :
    Option (View × CatalogCache × Nat) :=
  (getOrCreateIn (·.ignore)
    { tableSchema := v.viewSchema, tableName := v.viewName, triggerName := name }
    (v.viewSchema, v.viewName, name) v.triggers c.triggers).map fun r =>
      ({ v with triggers := r.1 }, { c with triggers := r.2.1 }, r.2.2)

/-- /repo/ddl/catalog_cache.go:758-769 `AddOrUpdateViewTrigger` -/
def addOrUpdateViewTrigger (c : CatalogCache) (v : View) (x : Trigger) :
    Option (View × CatalogCache) :=
  (addOrUpdateIn (·.ignore) { x with tableSchema := v.viewSchema, tableName := v.viewName }
    (v.viewSchema, v.viewName, x.triggerName) v.triggers c.triggers).map fun r =>
      ({ v with triggers := r.1 }, { c with triggers := r.2 })

end CatalogCache

/-! ## Calls -/

/-- A call on a table. -/
inductive TableCall
  | getOrCreateColumn (name type : Str)
  | addOrUpdateColumn (x : Column)
  | getOrCreateConstraint (name type : Str) (columns : List Str)
  | addOrUpdateConstraint (x : Constraint)
  | getOrCreateIndex (name : Str) (columns : List Str)
  | addOrUpdateIndex (x : Index)
  | getOrCreateTrigger (name : Str)
  | addOrUpdateTrigger (x : Trigger)

/-- A call on a view. -/
inductive ViewCall
  | getOrCreateIndex (name : Str) (columns : List Str)
  | addOrUpdateIndex (x : Index)
  | getOrCreateTrigger (name : Str)
  | addOrUpdateTrigger (x : Trigger)

/-- A call on a schema, or on the table or view at a position of its list. -/
inductive SchemaCall
  | getOrCreateEnum (name : Str)
  | addOrUpdateEnum (x : Enum)
  | getOrCreateDomain (name : Str)
  | addOrUpdateDomain (x : Domain)
  | getOrCreateRoutine (name args : Str)
  | addOrUpdateRoutine (x : Routine)
  | getOrCreateView (name : Str)
  | addOrUpdateView (x : View)
  | getOrCreateTable (name : Str)
  | addOrUpdateTable (x : Table)
  | table (j : Nat) (k : TableCall)
  | view (j : Nat) (k : ViewCall)

/-- A call on a catalog, or on the schema at a position of its list. -/
inductive Call
  | getOrCreateSchema (name : Str)
  | addOrUpdateSchema (x : Schema)
  | schema (i : Nat) (k : SchemaCall)

/-- The functions of /repo/ddl/catalog_cache.go called with a pointer to the table. -/
def callTable (c : CatalogCache) (t : Table) : TableCall → Option (Table × CatalogCache)
  | .getOrCreateColumn n ty => (c.getOrCreateColumn t n ty).map fun r => (r.1, r.2.1)
  | .addOrUpdateColumn x => c.addOrUpdateColumn t x
  | .getOrCreateConstraint n ty cs => (c.getOrCreateConstraint t n ty cs).map fun r => (r.1, r.2.1)
  | .addOrUpdateConstraint x => c.addOrUpdateConstraint t x
  | .getOrCreateIndex n cs => (c.getOrCreateIndex t n cs).map fun r => (r.1, r.2.1)
  | .addOrUpdateIndex x => c.addOrUpdateIndex t x
  | .getOrCreateTrigger n => (c.getOrCreateTrigger t n).map fun r => (r.1, r.2.1)
  | .addOrUpdateTrigger x => c.addOrUpdateTrigger t x

/-- The functions of /repo/ddl/catalog_cache.go called with a pointer to the view. -/
def callView (c : CatalogCache) (v : View) : ViewCall → Option (View × CatalogCache)
  | .getOrCreateIndex n cs => (c.getOrCreateViewIndex v n cs).map fun r => (r.1, r.2.1)
  | .addOrUpdateIndex x => c.addOrUpdateViewIndex v x
  | .getOrCreateTrigger n => (c.getOrCreateViewTrigger v n).map fun r => (r.1, r.2.1)
  | .addOrUpdateTrigger x => c.addOrUpdateViewTrigger v x

/-- The functions of /repo/ddl/catalog_cache.go called with a pointer to the schema or to one of
its tables or views; without such a table or view there is no pointer, and nothing happens. -/
def callSchema (c : CatalogCache) (s : Schema) : SchemaCall → Option (Schema × CatalogCache)
  | .getOrCreateEnum n => (c.getOrCreateEnum s n).map fun r => (r.1, r.2.1)
  | .addOrUpdateEnum x => c.addOrUpdateEnum s x
  | .getOrCreateDomain n => (c.getOrCreateDomain s n).map fun r => (r.1, r.2.1)
  | .addOrUpdateDomain x => c.addOrUpdateDomain s x
  | .getOrCreateRoutine n a => (c.getOrCreateRoutine s n a).map fun r => (r.1, r.2.1)
  | .addOrUpdateRoutine x => c.addOrUpdateRoutine s x
  | .getOrCreateView n => (c.getOrCreateView s n).map fun r => (r.1, r.2.1)
  | .addOrUpdateView x => c.addOrUpdateView s x
  | .getOrCreateTable n => (c.getOrCreateTable s n).map fun r => (r.1, r.2.1)
  | .addOrUpdateTable x => c.addOrUpdateTable s x
  | .table j k => s.tables[j]?.elim (some (s, c)) fun t =>
      (callTable c t k).map fun r => ({ s with tables := s.tables.set j r.1 }, r.2)
  | .view j k => s.views[j]?.elim (some (s, c)) fun v =>
      (callView c v k).map fun r => ({ s with views := s.views.set j r.1 }, r.2)

/-- The functions of /repo/ddl/catalog_cache.go called with a pointer to the catalog or to one of
its schemas. -/
def call (c : CatalogCache) (cat : Catalog) : Call → Option (Catalog × CatalogCache)
  | .getOrCreateSchema n => (c.getOrCreateSchema cat n).map fun r => (r.1, r.2.1)
  | .addOrUpdateSchema x => c.addOrUpdateSchema cat x
  | .schema i k => cat.schemas[i]?.elim (some (cat, c)) fun s =>
      (callSchema c s k).map fun r => ({ cat with schemas := cat.schemas.set i r.1 }, r.2)

/-- Calls one after the other. -/
def calls (c : CatalogCache) (cat : Catalog) : List Call → Option (Catalog × CatalogCache)
  | [] => some (cat, c)
  | k :: r => (call c cat k).bind fun p => calls p.2 p.1 r

end Sqddl
