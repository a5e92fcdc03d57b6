import Verif.Spec.DdlStmt
import Verif.Model.Diff

/-!
# The statements that the parts of a migration stand for

Only the record types are taken from the model.
-/

namespace DdlText
open SqlSpec Sqddl CatalogSpec

/-- The actions of an ALTER TABLE: what is dropped goes first, so that a replacement can have the same
name; indexes and keys come last, when the columns exist. -/
def alterActions (d : Dialect) (cur coll : Str) (a : AlterTable) : List Action :=
  a.dropConstraints.map (fun c => .dropConstraint c.constraintName) ++
  a.dropIndexes.map (fun x => .dropIndex x.indexName) ++
  a.dropColumns.map (fun c => .dropColumn c.columnName) ++
  a.addColumns.map (fun c => .addColumn (colOf d coll false c)) ++
  a.alterColumns.map (fun p => .modifyColumn (colOf d coll false p.2)) ++
  a.createIndexes.map (fun x => .addIndex (idxOf d cur false true x)) ++
  a.addConstraints.map (fun c => .addConstraint (conOf d cur c))

/-- The ALTER TABLE that the changes of a table stand for. -/
def alterTableOf (d : Dialect) (cur coll : Str) (a : AlterTable) : Stmt :=
  .alterTable (fullName cur a.destTable.tableSchema a.destTable.tableName)
    (alterActions d cur coll a)

/-- Changes that can be expressed; there is at least one. -/
structure AlterText (d : Dialect) (cur coll : Str) (a : AlterTable) : Prop where
  schema : a.destTable.tableSchema ≠ [] → PlainName d a.destTable.tableSchema
  name : PlainName d a.destTable.tableName
  dropConstraints : ∀ c ∈ a.dropConstraints, PlainName d c.constraintName
  dropIndexes : ∀ x ∈ a.dropIndexes, PlainName d x.indexName
  dropColumns : ∀ c ∈ a.dropColumns, PlainName d c.columnName
  addColumns : ∀ c ∈ a.addColumns, ColumnOk d coll false c
  alterColumns : ∀ p ∈ a.alterColumns, ColumnOk d coll false p.2
  createIndexes : ∀ x ∈ a.createIndexes, IndexOk d true x
  addConstraints : ∀ c ∈ a.addConstraints,
    ConstraintOk d cur c ∧ c.tableSchema = a.destTable.tableSchema
  some : alterActions d cur coll a ≠ []

/-- The ALTER TABLE that drops a constraint. -/
def dropConstraintOf (cur : Str) (c : Constraint) : Stmt :=
  .alterTable (fullName cur c.tableSchema c.tableName) [.dropConstraint c.constraintName]

/-- The ALTER TABLE that adds a constraint. -/
def addConstraintOf (d : Dialect) (cur : Str) (c : Constraint) : Stmt :=
  .alterTable (fullName cur c.tableSchema c.tableName) [.addConstraint (conOf d cur c)]

end DdlText
