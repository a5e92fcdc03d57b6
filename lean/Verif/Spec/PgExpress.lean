import Verif.Spec.PgConverge
import Verif.Model.Keywords

/-!
# Postgres databases whose migrations can be written down

Conditions on the names and texts of two versions of a database.  Only the record types of the catalog
and the list of keywords
are taken from the model.
-/

namespace PgSpec
open SqlSpec Sqddl DdlText PgText CatalogSpec FileSpec
open EngineSpec (Safe)

/-- The columns are written in the same way. -/
def Unchanged (a b : Column) : Prop :=
  a.columnType = b.columnType ∧ a.columnDefault = b.columnDefault ∧ a.isNotNull = b.isNotNull ∧
  a.columnIdentity = b.columnIdentity ∧ a.collationName = b.collationName

/-- A column to which ALTER COLUMN can be applied: its name needs no quotes, its type and its default
without casts are pieces of SQL. -/
structure AlterColumnText (c : Column) : Prop where
  self : SelfName postgresKeywords c.columnName
  type : ClauseText .postgres c.columnType
  collation : ¬ HasInnerPair '"' c.collationName
  cast : CastOk c.columnDefault
  default : Fragment .postgres (splitCast (Go.trimSpace c.columnDefault)).1 ∧
    flat 0 (toks .postgres (splitCast (Go.trimSpace c.columnDefault)).1) = true ∧
    (c.columnDefault ≠ [] → toks .postgres (splitCast (Go.trimSpace c.columnDefault)).1 ≠ [])
  identity : c.columnIdentity ≠ [] → Fragment .postgres c.columnIdentity ∧
    toks .postgres c.columnIdentity ∈ identities .postgres
  check : PlainName .postgres (c.tableName ++ b!"_" ++ c.columnName ++ b!"_not_null_check")

/-- Names and texts that are read back when they are written: `TableText`, `IndexOk` and
`AlterColumnText`. -/
structure Expressible (cur coll : Str) (src dest : Catalog) : Prop where
  schemas : ∀ s ∈ liveSchemas src ++ liveSchemas dest, PlainName .postgres s.schemaName
  names : ∀ t ∈ liveTables src, PlainName .postgres t.tableName ∧
    (∀ x ∈ liveColumns t, PlainName .postgres x.columnName) ∧
    (∀ x ∈ liveConstraints t, PlainName .postgres x.constraintName) ∧
    ∀ x ∈ liveIndexes t, PlainName .postgres x.indexName
  tables : ∀ t ∈ liveTables dest, TableText .postgres cur coll t
  indexes : ∀ t ∈ liveTables dest, ∀ x ∈ t.indexes, x.sql = [] ∧ IndexOk .postgres false x
  columns : ∀ p ∈ commonTables src dest, ∀ q ∈ commonColumns p.1 p.2,
    Unchanged q.1 q.2 ∨ AlterColumnText q.2

/-- The names of the objects can be parts of the names of files. -/
structure Nameable (pre : Str) (src dest : Catalog) : Prop where
  pre : Safe pre
  tables : ∀ t ∈ liveTables src ++ liveTables dest, Safe t.tableSchema ∧ Safe t.tableName
  fkeys : ∀ t ∈ liveTables src ++ liveTables dest, ∀ x ∈ liveConstraints t, foreignKey x = true →
    Safe x.referencesSchema ∧ Safe x.referencesTable
  keys : ∀ t ∈ liveTables dest, ∀ x ∈ liveConstraints t, keyConstraint x = true →
    Safe x.constraintName
  indexes : ∀ t ∈ liveTables dest, ∀ x ∈ liveIndexes t, Safe x.indexName

end PgSpec
