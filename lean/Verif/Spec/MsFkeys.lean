import Verif.Spec.MsText
import Verif.Spec.PgFkeys

/-!
# What a SQL Server script does to foreign keys
-/

namespace MsText
open SqlSpec DdlText Sqddl CatalogSpec
open PgText (newFkeys goneFkeys)

/-- The foreign keys that a statement adds, with the table that they are added to. -/
def fkeysAdded : MsText.Stmt → List (Name × Con)
  | .alter n (.addConstraint c) =>
    match c.kind with
    | .foreign _ _ => [(n, c)]
    | _ => []
  | .base (.createTable n items) => items.filterMap fun a =>
    match a with
    | .con c =>
      match c.kind with
      | .foreign _ _ => some (n, c)
      | _ => none
    | _ => none
  | _ => []

/-- The constraints that a statement drops by name, with the table that they are dropped from. -/
def consDropped : MsText.Stmt → List (Name × Str)
  | .alter n (.dropConstraint c) => [(n, c)]
  | _ => []

/-- Two versions of a column differ in type, default, NOT NULL or collation. -/
def Differs (a b : Column) : Prop :=
  a.columnType ≠ b.columnType ∨ a.columnDefault ≠ b.columnDefault ∨ a.isNotNull ≠ b.isNotNull ∨
    a.collationName ≠ b.collationName

instance (a b : Column) : Decidable (Differs a b) := by unfold Differs; infer_instance

/-- A foreign key that stays, with a column that differs. -/
structure Redone (drop : Bool) (p : Table × Table) (c : Constraint) : Prop where
  mem : c ∈ liveConstraints p.1
  fkey : foreignKey c = true
  stays : drop = true → hasConstraint p.2 c.constraintName = true
  column : ∃ q ∈ commonColumns p.1 p.2, Differs q.1 q.2 ∧ q.1.columnName ∈ c.columns

/-- The two tables of a foreign key. -/
def ends (c : Constraint) : (Str × Str) × (Str × Str) :=
  ((c.tableSchema, c.tableName), (c.referencesSchema, c.referencesTable))

/-- Foreign keys that are added to a table that exists lead between other tables than those foreign
keys that stay and have a column that differs. -/
def Apart (drop : Bool) (src dest : Catalog) : Prop :=
  ∀ p ∈ commonTables src dest, ∀ c ∈ liveConstraints p.1, foreignKey c = true →
    (drop = true → hasConstraint p.2 c.constraintName = true) →
    (∃ q ∈ commonColumns p.1 p.2, Differs q.1 q.2 ∧ q.1.columnName ∈ c.columns) →
    ∀ g ∈ newFkeys src dest true, ends c ≠ ends g.2 ∧ ends c ≠ (ends g.2).swap

instance (drop : Bool) (src dest : Catalog) : Decidable (Apart drop src dest) := by
  unfold Apart; infer_instance

/-- At most one of these columns differs. -/
def OneDiffers (p : Table × Table) (cols : List Str) : Prop :=
  cols.Nodup ∧ ∀ q ∈ commonColumns p.1 p.2, ∀ q' ∈ commonColumns p.1 p.2, Differs q.1 q.2 →
    Differs q'.1 q'.2 → q.1.columnName ∈ cols → q'.1.columnName ∈ cols →
    q.1.columnName = q'.1.columnName

instance (p : Table × Table) (cols : List Str) : Decidable (OneDiffers p cols) := by
  unfold OneDiffers; infer_instance

/-- At most one column of a foreign key differs. -/
def OneColumn (src dest : Catalog) : Prop :=
  ∀ p ∈ commonTables src dest, ∀ c ∈ liveConstraints p.1, foreignKey c = true →
    OneDiffers p c.columns

instance (src dest : Catalog) : Decidable (OneColumn src dest) := by
  unfold OneColumn; infer_instance

/-- The schema of a table that is changed. -/
def schemaOr (cur s : Str) : Str := if s ≠ [] then s else if cur ≠ [] then cur else b!"dbo"

end MsText
