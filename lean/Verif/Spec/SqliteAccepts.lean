import Verif.Spec.SqliteSchema

/-!
# Which statements SQLite accepts

Independent of the model.  What depends on rows and on expressions (CHECK, generated columns, partial
indexes) is left out.
-/

namespace LiteSchema
open SqlSpec Sqddl LiteText DdlSpec
open LiteSpec (fold key findCol inCon colsOf consOf settable)
open DdlText hiding Stmt readStmt runScript Rule

/-- The columns that an index names; expressions are left out. -/
def named (x : Idx) : List Str :=
  x.cols.filterMap fun c => match c with
    | .column n _ => some n
    | .expr _ _ => none

/-- A primary key as a constraint of the table. -/
def isPrimary (c : Con) : Bool :=
  match c.kind with
  | .primary _ => true
  | _ => false

/-- The columns of a constraint. -/
def columnsOf (c : Con) : List Str :=
  match c.kind with
  | .primary cols | .unique cols | .foreign cols _ => cols
  | _ => []

/-- Conditions of SQLite in addition to those of `effect`: a table has a column and at most one
primary key, constraints and indexes name existing columns, a column that is dropped is not indexed and
not the last one, and rows are copied between existing columns that are not generated. -/
def Fit (db : Sch) : Stmt → Prop
  | .createTable _ xs =>
    colsOf xs ≠ [] ∧
    ((colsOf xs).filter fun c => c.primary).length + ((consOf xs).filter isPrimary).length ≤ 1 ∧
    ∀ c ∈ consOf xs, ∀ n ∈ columnsOf c, (findCol (colsOf xs) (fold n)).isSome = true
  | .createIndex x =>
    ∀ t T, x.table = some t → db.table (key t) = some T →
      ∀ n ∈ named x, (findCol T.cols (fold n)).isSome = true
  | .dropColumn n c =>
    (∀ i x, db.index i = some (key n, x) → ∀ m ∈ named x, fold m ≠ fold c) ∧
    ∀ T, db.table (key n) = some T → ∃ y ∈ T.cols, fold y.name ≠ fold c
  | .copyRows n cs vs m =>
    cs.length = vs.length ∧ (cs.map fold).Nodup ∧
    (∀ T, db.table (key n) = some T → ∀ c ∈ cs, settable T.cols c = true) ∧
    ∀ T, db.table (key m) = some T → ∀ v ∈ vs, (findCol T.cols (fold v)).isSome = true
  | _ => True

/-- All statements of the script are accepted, one after the other. -/
def Accepted (fk : Bool) : Sch → List Stmt → Prop
  | _, [] => True
  | db, st :: sts => Fit db st ∧ ∃ db', effect fk db st = some db' ∧ Accepted fk db' sts

/-- A table of a catalog that SQLite accepts: it has a column and at most one primary key, UNIQUE
behind a column is also a constraint, and indexes name columns of the table and have different names. -/
structure Sound (t : Table) : Prop where
  column : CatalogSpec.liveColumns t ≠ []
  ignored : ∀ c ∈ t.columns, c.ignore = false
  primary : ((CatalogSpec.liveConstraints t).filter fun k =>
    decide (k.constraintType = b!"PRIMARY KEY")).length ≤ 1
  unique : ∀ c ∈ CatalogSpec.liveColumns t, c.isUnique = true →
    ∃ k ∈ CatalogSpec.liveConstraints t, k.constraintType = b!"UNIQUE" ∧ k.columns = [c.columnName]
  indexNames : (t.indexes.map fun x => fold x.indexName).Nodup
  indexes : ∀ x ∈ t.indexes, ∀ n ∈ named (idxOfIndex x),
    ∃ c ∈ CatalogSpec.liveColumns t, fold c.columnName = fold n

end LiteSchema
