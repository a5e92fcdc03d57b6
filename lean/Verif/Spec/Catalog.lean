import Verif.Model.Catalog

/-!
# What a catalog contains

These definitions look at the lists of a catalog only; they do not mention the cache.
-/

namespace CatalogSpec
open Sqddl

/-- The dialects whose migrations are generated by the same walk over the schemas. -/
def Server (d : Dialect) : Prop := d = .mysql ∨ d = .postgres ∨ d = .sqlserver

/-- The schemas that are not ignored. -/
def liveSchemas (c : Catalog) : List Schema := c.schemas.filter fun s => !s.ignore

/-- The tables that are not ignored and not in an ignored schema. -/
def liveTables (c : Catalog) : List Table :=
  (liveSchemas c).flatMap fun s => s.tables.filter fun t => !t.ignore

/-- The columns, indexes and constraints of a table that are not ignored. -/
def liveColumns (t : Table) : List Column := t.columns.filter fun x => !x.ignore
@[inherit_doc liveColumns]
def liveIndexes (t : Table) : List Index := t.indexes.filter fun x => !x.ignore
@[inherit_doc liveColumns]
def liveConstraints (t : Table) : List Constraint := t.constraints.filter fun x => !x.ignore

/-- `c` has a schema of this name. -/
def hasSchema (c : Catalog) (s : Str) : Bool := (liveSchemas c).any fun x => x.schemaName == s

/-- `c` has a table of this name. -/
def hasTable (c : Catalog) (s t : Str) : Bool :=
  (liveTables c).any fun x => x.tableSchema == s && x.tableName == t

/-- The table has a column of this name. -/
def hasColumn (t : Table) (n : Str) : Bool := (liveColumns t).any fun x => x.columnName == n

/-- The table has an index of this name. -/
def hasIndex (t : Table) (n : Str) : Bool := (liveIndexes t).any fun x => x.indexName == n

/-- The table has a constraint of this name. -/
def hasConstraint (t : Table) (n : Str) : Bool :=
  (liveConstraints t).any fun x => x.constraintName == n

/-- `c` has a table of this name with a constraint of this name. -/
def hasTableConstraint (c : Catalog) (s t n : Str) : Bool :=
  (liveTables c).any fun x => x.tableSchema == s && x.tableName == t && hasConstraint x n

/-- The constraint is a foreign key. -/
def foreignKey (c : Constraint) : Bool := c.constraintType == FOREIGN_KEY

/-- The constraint is a primary key or a unique constraint. -/
def keyConstraint (c : Constraint) : Bool :=
  c.constraintType == PRIMARY_KEY || c.constraintType == UNIQUE

/-- The pairs of tables of the same name, in the order of the second catalog. -/
def commonTables (src dest : Catalog) : List (Table × Table) :=
  (liveTables dest).filterMap fun t =>
    ((liveTables src).find? fun s => s.tableSchema == t.tableSchema && s.tableName == t.tableName).map
      fun s => (s, t)

/-- The pairs of columns of the same name, in the order of the second table. -/
def commonColumns (src dest : Table) : List (Column × Column) :=
  (liveColumns dest).filterMap fun x =>
    ((liveColumns src).find? fun s => s.columnName == x.columnName).map fun s => (s, x)

/-- The pairs of constraints of the same name, in the order of the second table. -/
def commonConstraints (src dest : Table) : List (Constraint × Constraint) :=
  (liveConstraints dest).filterMap fun x =>
    ((liveConstraints src).find? fun s => s.constraintName == x.constraintName).map
      fun s => (s, x)

/-- A primary key of the destination that exists in the source under the same name with other
columns (names of columns contain no NUL). -/
def rekeyed (p : Constraint × Constraint) : Bool :=
  p.2.constraintType == PRIMARY_KEY && Go.join ['\x00'] p.1.columns != Go.join ['\x00'] p.2.columns

/-- A well-formed table: within the table, names are distinct and constraints have names. -/
structure TableOk (tb : Table) : Prop where
  columns : (tb.columns.map (·.columnName)).Nodup
  indexes : (tb.indexes.map (·.indexName)).Nodup
  constraints : (tb.constraints.map (·.constraintName)).Nodup
  named : ∀ c ∈ tb.constraints, c.constraintName ≠ []

/-- A well-formed schema: tables have distinct names, which are not the name of a view, and carry
the name of their schema. -/
structure SchemaOk (s : Schema) : Prop where
  tables : (s.tables.map (·.tableName)).Nodup
  views : ∀ v ∈ s.views, ∀ t ∈ s.tables, v.viewName ≠ t.tableName
  schemaName : ∀ t ∈ s.tables, t.tableSchema = s.schemaName
  ok : ∀ t ∈ s.tables, TableOk t

/-- A well-formed catalog, as databases (which enforce it) and the struct parser (which fills
catalogs by name) produce them. -/
structure Ok (c : Catalog) : Prop where
  schemas : (c.schemas.map (·.schemaName)).Nodup
  ok : ∀ s ∈ c.schemas, SchemaOk s

instance (tb : Table) : Decidable (TableOk tb) :=
  decidable_of_iff
    ((tb.columns.map (·.columnName)).Nodup ∧ (tb.indexes.map (·.indexName)).Nodup ∧
      (tb.constraints.map (·.constraintName)).Nodup ∧
      ∀ c ∈ tb.constraints, c.constraintName ≠ [])
    ⟨fun ⟨a, b, c, d⟩ => ⟨a, b, c, d⟩, fun ⟨a, b, c, d⟩ => ⟨a, b, c, d⟩⟩

instance (s : Schema) : Decidable (SchemaOk s) :=
  decidable_of_iff
    ((s.tables.map (·.tableName)).Nodup ∧
      (∀ v ∈ s.views, ∀ t ∈ s.tables, v.viewName ≠ t.tableName) ∧
      (∀ t ∈ s.tables, t.tableSchema = s.schemaName) ∧ ∀ t ∈ s.tables, TableOk t)
    ⟨fun ⟨a, b, c, d⟩ => ⟨a, b, c, d⟩, fun ⟨a, b, c, d⟩ => ⟨a, b, c, d⟩⟩

instance (c : Catalog) : Decidable (Ok c) :=
  decidable_of_iff ((c.schemas.map (·.schemaName)).Nodup ∧ ∀ s ∈ c.schemas, SchemaOk s)
    ⟨fun ⟨a, b⟩ => ⟨a, b⟩, fun ⟨a, b⟩ => ⟨a, b⟩⟩

end CatalogSpec
