import Verif.Model.ScriptIndexes

/-!
# Specification for C110 and C111: the indexes of a database, and the tables of SQL Server

A database is a list of its indexes (or tables) as they were defined; the rows of the catalogs that
stand for them come in any order.
-/

namespace IndexSpec
open Sqddl.Scripts

/-! ## MySQL -/

/-- a column or an expression -/
inductive Part
  | column (name : Str)
  | expr (text : Str)

/-- how it is written in an index -/
def Part.text : Part → Str
  | .column n => n
  | .expr e => b!"(" ++ e ++ b!")"

/-- its column in statistics -/
def Part.name? : Part → Option Str
  | .column n => some n
  | .expr _ => none

/-- its expression in statistics -/
def Part.expr? : Part → Option Str
  | .column _ => none
  | .expr e => some e

/-- an index; `made`: it was made for a constraint, whose name it has -/
structure MyIndex where
  schema : Str
  table : Str
  name : Str
  type : Str
  unique : Bool
  parts : List (Part × Bool)
  made : Bool

/-- its rows in statistics, numbered from 1 -/
def statRows (i : MyIndex) : List MyStat :=
  (i.parts.zipIdx 1).map fun x =>
    ⟨i.schema, i.table, i.name, i.type, !i.unique, x.2, x.1.1.name?, x.1.1.expr?, x.1.2⟩

/-- information_schema of a server with these indexes -/
structure MyIndexShows (db : List MyIndex) (c : MyStats) : Prop where
  stats : c.stats.Perm (db.flatMap statRows)
  made : ∀ i ∈ db, i.made = true → (i.schema, i.table, i.name) ∈ c.constraints

/-- What MySQL demands; before version 8 and in MariaDB there are no expressions. -/
structure MyIndexValid (old : Bool) (db : List MyIndex) : Prop where
  names : (db.map fun i => (i.schema, i.table, i.name)).Nodup
  parts : ∀ i ∈ db, i.parts ≠ []
  old : old = true → ∀ i ∈ db, ∀ p ∈ i.parts, ∃ n, p.1 = .column n

/-- No constraint has the name of an index that was not made for one. -/
def MyIndexApart (db : List MyIndex) (c : MyStats) : Prop :=
  ∀ i ∈ db, i.made = false → ∀ k ∈ c.constraints, k.2.2 ≠ i.name

/-! ## SQLite -/

/-- an index that was made with CREATE INDEX; an expression is `none` -/
structure LiteIndex where
  name : Str
  unique : Bool
  sql : Str
  parts : List (Option Str)

/-- a table -/
structure LiteIndexed where
  name : Str
  sql : Str
  indexes : List LiteIndex

/-- the number of a column of the table, -2 for an expression -/
def cidOf (cid : Nat → Nat) (n : Nat) : Option Str → Int
  | some _ => cid n
  | none => -2

/-- sqlite_schema and the pragmas for these tables -/
structure LiteIndexShows (db : List LiteIndexed) (c : LiteIndexInfo) : Prop where
  rows : (c.rows.filter (fun m => m.type == b!"table")).Perm (db.map fun t => ⟨b!"table", t.name, t.sql⟩)
  indexes : ∀ t ∈ db, ((c.indexes t.name).filter (fun i => i.2.2 == 'c')).Perm
    (t.indexes.map fun i => (i.name, i.unique, 'c'))
  indexRows : ∀ t ∈ db, ∀ i ∈ t.indexes,
    c.indexRows.filter (fun m => m.tblName == t.name && m.name == i.name) = [⟨i.name, t.name, i.sql⟩]
  columns : ∀ t ∈ db, ∀ i ∈ t.indexes, ∃ cid : Nat → Nat,
    (c.columns i.name).Perm (i.parts.zipIdx.map fun x => (x.2, cidOf cid x.2 x.1, x.1))

/-- What SQLite demands. -/
structure LiteIndexValid (db : List LiteIndexed) : Prop where
  names : (db.map (·.name)).Nodup
  indexes : ∀ t ∈ db, (t.indexes.map (·.name)).Nodup ∧ ∀ i ∈ t.indexes, i.parts ≠ []

/-! ## SQL Server -/

/-- an index: its key columns (number and name) with their directions, its included columns, and the
columns that are neither: those that only say in which partition a row is, and those of a clustered
columnstore -/
structure MsIdx where
  id : Nat
  name : Option Str
  type : Str
  unique : Bool
  primary : Bool
  uniqueConstraint : Bool
  filter : Option Str
  keys : List ((Nat × Str) × Bool)
  included : List (Nat × Str)
  partition : List (Nat × Str)

/-- a foreign key: pairs of columns -/
structure MsFkey where
  id : Nat
  name : Str
  refTable : Nat
  cols : List ((Nat × Str) × Nat × Str)
  onUpdate : Str
  onDelete : Str
  notTrusted : Bool

/-- a table; checks have a name, an expression and are trusted or not -/
structure MsTab where
  id : Nat
  schema : Str
  name : Str
  columns : List (Nat × Str)
  indexes : List MsIdx
  fkeys : List MsFkey
  checks : List (Str × Str × Bool)

/-- all indexes with their tables -/
def indexesOf (db : List MsTab) : List (MsTab × MsIdx) := db.flatMap fun t => t.indexes.map (t, ·)

/-- all foreign keys with their tables -/
def fkeysOf (db : List MsTab) : List (MsTab × MsFkey) := db.flatMap fun t => t.fkeys.map (t, ·)

/-- the row of an index -/
def indexRow (p : MsTab × MsIdx) : MsIndex :=
  ⟨p.1.id, p.2.id, p.2.name, p.2.type, p.2.unique, p.2.primary, p.2.uniqueConstraint, p.2.filter⟩

/-- the rows of its columns: key columns are numbered from 1, other columns have the number 0 -/
def indexColumnRows (p : MsTab × MsIdx) : List MsIndexColumn :=
  (p.2.partition.map fun x => ⟨p.1.id, p.2.id, x.1, 0, false, false⟩) ++
  (p.2.included.map fun x => ⟨p.1.id, p.2.id, x.1, 0, false, true⟩) ++
  (p.2.keys.zipIdx 1).map fun x => ⟨p.1.id, p.2.id, x.1.1.1, x.2, x.1.2, false⟩

/-- the rows of the columns of a foreign key -/
def fkColumnRows (p : MsTab × MsFkey) : List MsFkColumn :=
  (p.2.cols.zipIdx 1).map fun x => ⟨p.2.id, x.2, p.1.id, x.1.1.1, p.2.refTable, x.1.2.1⟩

/-- the catalog views of a database with these tables -/
structure MsShows (db : List MsTab) (c : MsInfo) : Prop where
  tables : c.tables.Perm (db.map fun t => ⟨t.id, t.schema, t.name⟩)
  columns : c.columns.Perm (db.flatMap fun t => t.columns.map fun x => ⟨t.id, x.1, x.2⟩)
  indexes : c.indexes.Perm ((indexesOf db).map indexRow)
  indexColumns : c.indexColumns.Perm ((indexesOf db).flatMap indexColumnRows)
  fks : c.fks.Perm ((fkeysOf db).map fun p =>
    ⟨p.2.id, p.1.id, p.2.name, p.2.onUpdate, p.2.onDelete, p.2.notTrusted⟩)
  fkColumns : c.fkColumns.Perm ((fkeysOf db).flatMap fkColumnRows)
  checks : c.checks.Perm (db.flatMap fun t => t.checks.map fun x => ⟨t.id, x.1, x.2.1, x.2.2⟩)

/-- What SQL Server demands: numbers and names identify, the columns of indexes and foreign keys are
columns of their tables, indexes have columns, and only indexes have included columns. -/
structure MsValid (db : List MsTab) : Prop where
  ids : (db.map (·.id)).Nodup
  names : (db.map fun t => (t.schema, t.name)).Nodup
  columnIds : ∀ t ∈ db, (t.columns.map (·.1)).Nodup
  indexIds : ∀ t ∈ db, (t.indexes.map (·.id)).Nodup
  indexNames : ∀ t ∈ db, (t.indexes.map (·.name)).Nodup
  keys : ∀ t ∈ db, ∀ i ∈ t.indexes, i.name ≠ none → i.keys ≠ [] ∨ i.included ≠ [] ∨ i.partition ≠ []
  keyColumns : ∀ t ∈ db, ∀ i ∈ t.indexes, ∀ k ∈ i.keys, k.1 ∈ t.columns
  otherColumns : ∀ t ∈ db, ∀ i ∈ t.indexes, ∀ k ∈ i.included ++ i.partition, k ∈ t.columns
  constraints : ∀ t ∈ db, ∀ i ∈ t.indexes, (i.primary = true ∨ i.uniqueConstraint = true) →
    i.included = [] ∧ i.name ≠ none
  fkIds : ((fkeysOf db).map (·.2.id)).Nodup
  fkNames : ∀ t ∈ db, (t.fkeys.map (·.name)).Nodup
  fkCols : ∀ t ∈ db, ∀ k ∈ t.fkeys, k.cols ≠ [] ∧ ∃ t' ∈ db, t'.id = k.refTable ∧
    ∀ x ∈ k.cols, x.1 ∈ t.columns ∧ x.2 ∈ t'.columns
  checkNames : ∀ t ∈ db, (t.checks.map (·.1)).Nodup

/-- Every column of an index is a key column or an included column. -/
def Aligned (db : List MsTab) : Prop := ∀ t ∈ db, ∀ i ∈ t.indexes, i.partition = []

end IndexSpec
