import Verif.Model.Catalog

/-!
# The catalog of a database from lists of its objects

What introspection should make of the objects that the database reports, each with the names of the
schema and the table or view it belongs to.
-/

namespace IntrospectSpec
open Sqddl

/-- The objects that a database reports. -/
structure Reported where
  enums : List Enum := []
  domains : List Domain := []
  routines : List Routine := []
  views : List View := []
  tables : List Table := []
  columns : List Column := []
  constraints : List Constraint := []
  indexes : List Index := []
  triggers : List Trigger := []

/-- The schemas that have a enum, domain, routine, view or table. -/
def schemaNames (o : Reported) : List Str :=
  o.enums.map (·.enumSchema) ++ o.domains.map (·.domainSchema) ++
  o.routines.map (·.routineSchema) ++ o.views.map (·.viewSchema) ++ o.tables.map (·.tableSchema)

/-- The constraint is a key of only the column `x`. -/
def keyOf (type : Str) (x : Column) (k : Constraint) : Bool :=
  k.constraintType == type && k.columns == [x.columnName]

/-- The foreign key of only the column `x`; of several, the last. -/
def fkeyOf (ks : List Constraint) (x : Column) : Option Constraint :=
  (ks.filter (keyOf FOREIGN_KEY x)).getLast?

/-- The column with the foreign key, if there is one. -/
def refers (x : Column) : Option Constraint → Column
  | none => x
  | some k => { x with
      referencesSchema := k.referencesSchema
      referencesTable := k.referencesTable
      referencesColumn := k.referencesColumns.headD []
      updateRule := k.updateRule
      deleteRule := k.deleteRule
      isDeferrable := k.isDeferrable
      isInitiallyDeferred := k.isInitiallyDeferred }

/-- The column with what the constraints of its table say about it. -/
def marked (ks : List Constraint) (x : Column) : Column :=
  refers
    { x with
      isPrimaryKey := x.isPrimaryKey || ks.any (keyOf PRIMARY_KEY x)
      isUnique := x.isUnique || ks.any (keyOf UNIQUE x) }
    (fkeyOf ks x)

/-- The constraints of the table. -/
def constraintsOf (o : Reported) (t : Table) : List Constraint :=
  o.constraints.filter fun k => k.tableSchema == t.tableSchema && k.tableName == t.tableName

/-- The columns of the table. -/
def columnsOf (o : Reported) (t : Table) : List Column :=
  o.columns.filter fun k => k.tableSchema == t.tableSchema && k.tableName == t.tableName

/-- The table with everything in it. -/
def tableOf (o : Reported) (t : Table) : Table :=
  { t with
    columns := (columnsOf o t).map (marked (constraintsOf o t))
    constraints := constraintsOf o t
    indexes := o.indexes.filter fun k =>
      !k.isViewIndex && k.tableSchema == t.tableSchema && k.tableName == t.tableName
    triggers := o.triggers.filter fun k =>
      !k.isViewTrigger && k.tableSchema == t.tableSchema && k.tableName == t.tableName }

/-- The view with everything in it. -/
def viewOf (o : Reported) (v : View) : View :=
  { v with
    indexes := o.indexes.filter fun k =>
      k.isViewIndex && k.tableSchema == v.viewSchema && k.tableName == v.viewName
    triggers := o.triggers.filter fun k =>
      k.isViewTrigger && k.tableSchema == v.viewSchema && k.tableName == v.viewName }

/-- The schema with everything in it. -/
def schemaOf (o : Reported) (n : Str) : Schema :=
  { schemaName := n
    enums := o.enums.filter (·.enumSchema == n)
    enumsValid := o.enums.any (·.enumSchema == n)
    domains := o.domains.filter (·.domainSchema == n)
    domainsValid := o.domains.any (·.domainSchema == n)
    routines := o.routines.filter (·.routineSchema == n)
    routinesValid := o.routines.any (·.routineSchema == n)
    views := (o.views.filter (·.viewSchema == n)).map (viewOf o)
    viewsValid := o.views.any (·.viewSchema == n)
    tables := (o.tables.filter (·.tableSchema == n)).map (tableOf o) }

/-- The schemas hold exactly what the database reports: each of its schemas once, with everything
in it. -/
def Holds (o : Reported) (ss : List Schema) : Prop :=
  (ss.map (·.schemaName)).Nodup ∧ (∀ n, n ∈ ss.map (·.schemaName) ↔ n ∈ schemaNames o) ∧
    ∀ s ∈ ss, s = schemaOf o s.schemaName

/-- The names identify the objects. -/
structure Named (o : Reported) : Prop where
  enums : (o.enums.map fun x => (x.enumSchema, x.enumName)).Nodup
  domains : (o.domains.map fun x => (x.domainSchema, x.domainName)).Nodup
  routines : (o.routines.map fun x =>
    (x.routineSchema, x.routineName, x.identityArguments)).Nodup
  views : (o.views.map fun x => (x.viewSchema, x.viewName)).Nodup
  tables : (o.tables.map fun x => (x.tableSchema, x.tableName)).Nodup
  columns : (o.columns.map fun x => (x.tableSchema, x.tableName, x.columnName)).Nodup
  constraints : ((o.constraints.filter (·.constraintName ≠ [])).map fun x =>
    (x.tableSchema, x.tableName, x.constraintName)).Nodup
  indexes : (o.indexes.map fun x => (x.tableSchema, x.tableName, x.indexName)).Nodup
  triggers : (o.triggers.map fun x => (x.tableSchema, x.tableName, x.triggerName)).Nodup

/-- Every constraint is one of a table that is reported. -/
def Placed (o : Reported) : Prop :=
  ∀ k ∈ o.constraints, ∃ t ∈ o.tables, t.tableSchema = k.tableSchema ∧ t.tableName = k.tableName

/-- A key of one column has its column, and a foreign key of one column has the column it
references. -/
def KeysKnown (o : Reported) : Prop :=
  ∀ k ∈ o.constraints, ∀ n, k.columns = [n] →
    (k.constraintType = PRIMARY_KEY ∨ k.constraintType = UNIQUE ∨ k.constraintType = FOREIGN_KEY) →
    (∃ x ∈ o.columns, x.tableSchema = k.tableSchema ∧ x.tableName = k.tableName ∧ x.columnName = n) ∧
    (k.constraintType = FOREIGN_KEY → k.referencesColumns ≠ [])

end IntrospectSpec
