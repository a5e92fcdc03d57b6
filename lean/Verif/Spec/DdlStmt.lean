import Verif.Spec.DdlMeaning
import Verif.Spec.Catalog

/-!
# What statements mean, and the statements that objects of a catalog stand for

Only the record types of the catalog are taken from the model.
-/

namespace DdlText
open SqlSpec Sqddl CatalogSpec

/-- The full name of a table; a table without a schema is in the current schema. -/
def fullName (cur s n : Str) : Name := (some (if s = [] then cur else s), n)

/-- The full name of the table of a statement. -/
def full (cur : Str) (n : Name) : Name := (some (n.1.getD cur), n.2)

/-- The index with the full name of its table. -/
def Idx.resolve (cur : Str) (x : Idx) : Idx := { x with table := x.table.map (full cur) }

/-- The item with the full names of the tables it mentions; `owner` is the schema of its table. -/
def Item.resolve (d : Dialect) (cur owner : Str) : Item → Item
  | .col c => .col c
  | .con c => .con (c.resolve d cur owner)

/-- The action with the full names of the tables it mentions. -/
def Action.resolve (d : Dialect) (cur owner : Str) : Action → Action
  | .addConstraint c => .addConstraint (c.resolve d cur owner)
  | a => a

/-- The statement with the full names of the tables it mentions. -/
def Stmt.resolve (d : Dialect) (cur : Str) : Stmt → Stmt
  | .createSchema n => .createSchema n
  | .dropSchema n => .dropSchema n
  | .dropTable n => .dropTable (full cur n)
  | .createTable n xs => .createTable (full cur n) (xs.map (Item.resolve d cur (n.1.getD cur)))
  | .createIndex x => .createIndex (x.resolve cur)
  | .alterTable n xs => .alterTable (full cur n) (xs.map (Action.resolve d cur (n.1.getD cur)))

/-- The statements of a script, with full names. -/
def runScript (d : Dialect) (kw : List Str) (cur s : Str) : Option (List Stmt) :=
  (readScript d kw s).map fun sts => sts.map (Stmt.resolve d cur)

/-- The constraint is a primary key. -/
def primaryKey (c : Constraint) : Bool := c.constraintType = b!"PRIMARY KEY"

/-- The constraints that are part of CREATE TABLE.  On SQLite all are, but a primary key of one
column is part of the column.  `all`: all but foreign keys, which follow when all tables exist;
otherwise MySQL and SQL Server want the primary key. -/
def tableConstraints (d : Dialect) (all : Bool) (t : Table) : List Constraint :=
  (liveConstraints t).filter fun c =>
    if d = .sqlite then !(primaryKey c && c.columns.length == 1)
    else if all then c.constraintType ≠ b!"FOREIGN KEY"
    else (d = .mysql || d = .sqlserver) && primaryKey c

/-- The CREATE TABLE that a table stands for. -/
def createTableOf (d : Dialect) (cur coll : Str) (all : Bool) (t : Table) : Stmt :=
  .createTable (fullName cur t.tableSchema t.tableName)
    ((liveColumns t).map (fun c => .col (colOf d coll false c)) ++
      (tableConstraints d all t).map fun c => .con (conOf d cur c))

/-- A table whose CREATE TABLE can be expressed. -/
structure TableText (d : Dialect) (cur coll : Str) (t : Table) : Prop where
  dialect : d ≠ .oracle ∧ d ≠ .other
  sql : t.sql = []
  schema : t.tableSchema ≠ [] → PlainName d t.tableSchema
  name : PlainName d t.tableName
  some : liveColumns t ≠ []
  columns : ∀ c ∈ liveColumns t, ColumnOk d coll false c
  generated : ∀ c ∈ liveColumns t, c.isGenerated = true → c.generatedExpr ≠ []
  exclude : d = .postgres → ∀ c ∈ liveColumns t, Go.toLower c.columnName ≠ b!"exclude"
  constraints : ∀ c ∈ liveConstraints t, ConstraintOk d cur c ∧ c.tableSchema = t.tableSchema
  onePrimary : ((liveConstraints t).filter primaryKey).length ≤ 1

/-- The CREATE INDEX that an index stands for. -/
def createIndexOf (d : Dialect) (cur : Str) (conc : Bool) (x : Index) : Stmt :=
  .createIndex ((idxOf d cur conc false x).resolve cur)

end DdlText
