import Verif.Spec.MsConverge

/-!
# SQL Server databases whose migrations can be written down

Conditions on the names and texts of two versions of a database.  Only the record types of the catalog
are taken from the model.
-/

namespace MsSpec
open SqlSpec Sqddl DdlText CatalogSpec FileSpec
open MsText (Differs)
open EngineSpec (Safe)

/-- There are no two adjacent single quotes. -/
def lone : Str → Bool
  | [] => true
  | [_] => true
  | a :: b :: r => !(a == '\'' && b == '\'') && lone (b :: r)

/-- A name that can be written anywhere, also in a string. -/
def SchemaName (n : Str) : Prop := PlainName .sqlserver n ∧ lone n = true

/-- A column to which ALTER COLUMN can be applied: its type and its default are pieces of SQL, and its
collation is a word. -/
structure AlterColumnText (c : Column) : Prop where
  name : SchemaName c.columnName
  type : Fragment .sqlserver c.columnType ∧ flat 0 (toks .sqlserver c.columnType) = true ∧
    quiet [b!"COLLATE", b!"NOT", b!"NULL"] 0 (toks .sqlserver c.columnType) = true ∧
    toks .sqlserver c.columnType ≠ []
  collation : c.collationName.all wordChar = true
  default : Go.trimSpace c.columnDefault ≠ [] → Fragment .sqlserver (Go.trimSpace c.columnDefault) ∧
    flat 0 (toks .sqlserver (Go.trimSpace c.columnDefault)) = true ∧
    quiet [b!"FOR"] 0 (toks .sqlserver (Go.trimSpace c.columnDefault)) = true ∧
    toks .sqlserver (Go.trimSpace c.columnDefault) ≠ []

/-- Names and texts that are read back when they are written.  The keys, foreign keys and indexes of
the first version have to be, because some of them are dropped and added again. -/
structure Expressible (cur coll : Str) (src dest : Catalog) : Prop where
  schemas : ∀ s ∈ liveSchemas src ++ liveSchemas dest, SchemaName s.schemaName
  dropped : ∀ s ∈ liveSchemas src, hasSchema dest s.schemaName = false →
    (∀ v ∈ s.views, PlainName .sqlserver v.viewName) ∧
    (∀ t ∈ s.tables, PlainName .sqlserver t.tableName) ∧
    ∀ r ∈ s.routines, PlainName .sqlserver r.routineName
  names : ∀ t ∈ liveTables src ++ liveTables dest, SchemaName t.tableName
  old : ∀ t ∈ liveTables src, (∀ x ∈ liveColumns t, PlainName .sqlserver x.columnName) ∧
    (∀ x ∈ liveConstraints t, ConstraintOk .sqlserver cur x) ∧
    ∀ x ∈ liveIndexes t, x.sql = [] ∧ IndexOk .sqlserver false x
  tables : ∀ t ∈ liveTables dest, TableText .sqlserver cur coll t
  indexes : ∀ t ∈ liveTables dest, ∀ x ∈ t.indexes, x.sql = [] ∧ IndexOk .sqlserver false x
  columns : ∀ p ∈ commonTables src dest, ∀ q ∈ commonColumns p.1 p.2, Differs q.1 q.2 →
    AlterColumnText q.2

/-- The names of the objects can be parts of the names of files.  A file whose name ends in `.undo.sql`
would be taken for one that undoes another, and the name of a schema that is dropped is the end of the
name of a file. -/
structure Nameable (pre : Str) (src dest : Catalog) : Prop where
  pre : Safe pre
  schemas : ∀ s ∈ liveSchemas src, hasSchema dest s.schemaName = false →
    Safe s.schemaName ∧ ¬ EndsWith s.schemaName b!".undo"
  tables : ∀ t ∈ liveTables src ++ liveTables dest, Safe t.tableSchema ∧ Safe t.tableName
  fkeys : ∀ t ∈ liveTables src ++ liveTables dest, ∀ x ∈ liveConstraints t, foreignKey x = true →
    Safe x.referencesSchema ∧ Safe x.referencesTable
  keys : ∀ t ∈ liveTables src ++ liveTables dest, ∀ x ∈ liveConstraints t, keyConstraint x = true →
    Safe x.constraintName
  indexes : ∀ t ∈ liveTables src ++ liveTables dest, ∀ x ∈ liveIndexes t, Safe x.indexName

end MsSpec
