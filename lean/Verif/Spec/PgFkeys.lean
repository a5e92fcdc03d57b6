import Verif.Spec.PgText
import Verif.Spec.Catalog

/-!
# What a Postgres script does to foreign keys
-/

namespace PgText
open SqlSpec DdlText Sqddl CatalogSpec

/-- The foreign keys that a statement adds, with the table that they are added to. -/
def fkeysAdded : PgText.Stmt → List (Name × Con)
  | .alter n as => as.filterMap fun a =>
    match a with
    | .addConstraint c =>
      match c.kind with
      | .foreign _ _ => some (n, c)
      | _ => none
    | _ => none
  | .base (.alterTable n as) => as.filterMap fun a =>
    match a with
    | .addConstraint c =>
      match c.kind with
      | .foreign _ _ => some (n, c)
      | _ => none
    | _ => none
  | .base (.createTable n items) => items.filterMap fun a =>
    match a with
    | .con c =>
      match c.kind with
      | .foreign _ _ => some (n, c)
      | _ => none
    | _ => none
  | _ => []

/-- The constraints that a statement drops, with the table that they are dropped from. -/
def consDropped : PgText.Stmt → List (Name × Str)
  | .alter n as => as.filterMap fun a =>
    match a with
    | .dropConstraint _ c => some (n, c)
    | _ => none
  | .base (.alterTable n as) => as.filterMap fun a =>
    match a with
    | .dropConstraint c => some (n, c)
    | _ => none
  | _ => []

/-- The constraints that a statement validates, with the table. -/
def consValidated : PgText.Stmt → List (Name × Str)
  | .alter n as => as.filterMap fun a =>
    match a with
    | .validate c => some (n, c)
    | _ => none
  | _ => []

/-- The foreign keys that the source lacks, of tables that it has (`old`) or lacks. -/
def newFkeys (src dest : Catalog) (old : Bool) : List (Table × Constraint) :=
  ((liveTables dest).filter fun t => hasTable src t.tableSchema t.tableName == old).flatMap fun t =>
    ((liveConstraints t).filter fun c =>
      foreignKey c && !hasTableConstraint src t.tableSchema t.tableName c.constraintName).map
      fun c => (t, c)

/-- The foreign keys that the destination lacks. -/
def goneFkeys (src dest : Catalog) : List (Table × Constraint) :=
  (liveTables src).flatMap fun t =>
    ((liveConstraints t).filter fun c =>
      foreignKey c && !hasTableConstraint dest t.tableSchema t.tableName c.constraintName).map
      fun c => (t, c)

/-- No two of the foreign keys lead from a table to another and back. -/
def OneWay (fs : List (Table × Constraint)) : Prop :=
  ∀ f ∈ fs, ∀ g ∈ fs, (g.1.tableSchema, g.1.tableName) = (f.2.referencesSchema, f.2.referencesTable) →
    (f.1.tableSchema, f.1.tableName) = (g.2.referencesSchema, g.2.referencesTable) →
    (f.1.tableSchema, f.1.tableName) = (g.1.tableSchema, g.1.tableName)

instance (fs : List (Table × Constraint)) : Decidable (OneWay fs) := by unfold OneWay; infer_instance

/-- Constraints know the table that they belong to, and are of one of the kinds there are. -/
structure Owned (c : Catalog) : Prop where
  constraints : ∀ t ∈ liveTables c, ∀ x ∈ liveConstraints t,
    x.tableSchema = t.tableSchema ∧ x.tableName = t.tableName
  columns : ∀ t ∈ liveTables c, ∀ x ∈ liveColumns t, x.tableName = t.tableName

instance (c : Catalog) : Decidable (Owned c) :=
  decidable_of_iff ((∀ t ∈ liveTables c, ∀ x ∈ liveConstraints t,
    x.tableSchema = t.tableSchema ∧ x.tableName = t.tableName) ∧
    ∀ t ∈ liveTables c, ∀ x ∈ liveColumns t, x.tableName = t.tableName)
    ⟨fun ⟨a, b⟩ => ⟨a, b⟩, fun ⟨a, b⟩ => ⟨a, b⟩⟩

end PgText
