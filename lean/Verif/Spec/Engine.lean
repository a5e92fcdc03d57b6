import Verif.Spec.DdlStmt

/-!
# A database that runs DDL statements

An abstract MySQL server: what schemas, tables, columns, constraints and indexes exist, and what DDL
statements do to them.  A statement fails (`none`) if it creates what exists already, or drops or
changes what does not exist; and a server refuses a statement whose result is not `Consistent`.

Simplifications: the rows of the tables are not looked at (a statement can also fail because of the
rows, for example a NOT NULL that is violated); neither are the order of the columns, views,
triggers and routines, the types of the columns of foreign keys, and the indexes that MySQL creates
on its own for foreign keys.  IF EXISTS and IF NOT EXISTS have their usual meaning.
-/

namespace EngineSpec
open SqlSpec Sqddl DdlText

/-- The full name of a table: schema and name. -/
abbrev Key := Str × Str

/-- A table: its columns, constraints and indexes by name. -/
@[ext] structure Tbl where
  col : Str → Option Col
  con : Str → Option Con
  idx : Str → Option Idx

/-- A database: whether a schema exists, and the tables by name. -/
@[ext] structure Db where
  schema : Str → Bool
  table : Key → Option Tbl

/-- The function with a new value at one point. -/
def put {α β : Type} [DecidableEq α] (f : α → β) (a : α) (b : β) : α → β :=
  fun x => if x = a then b else f x

/-- The name of a table in a statement. -/
def key (n : Name) : Key := (n.1.getD [], n.2)

/-- The name by which a constraint is known: that of a primary key is always PRIMARY. -/
def conId (c : Con) : Str :=
  match c.kind with
  | .primary _ => b!"PRIMARY"
  | _ => c.name.getD []

/-- An index as it is kept with its table. -/
def plainIdx (x : Idx) : Idx := { x with table := none, concurrently := false }

/-- The table without columns. -/
def emptyTbl : Tbl := ⟨fun _ => none, fun _ => none, fun _ => none⟩

/-- What a part of ALTER TABLE does. -/
def act (t : Tbl) : Action → Option Tbl
  | .dropConstraint n => if (t.con n).isSome then some { t with con := put t.con n none } else none
  | .dropIndex n => if (t.idx n).isSome then some { t with idx := put t.idx n none } else none
  | .dropColumn n => if (t.col n).isSome then some { t with col := put t.col n none } else none
  | .addColumn c => if (t.col c.name).isNone then some { t with col := put t.col c.name (some c) } else none
  | .modifyColumn c =>
    if (t.col c.name).isSome then some { t with col := put t.col c.name (some c) } else none
  | .addIndex x =>
    if (t.idx x.name).isNone then some { t with idx := put t.idx x.name (some (plainIdx x)) } else none
  | .addConstraint c =>
    if (t.con (conId c)).isNone then some { t with con := put t.con (conId c) (some c) } else none
  | .validate n => if (t.con n).isSome then some t else none

/-- An item of CREATE TABLE is added like a part of ALTER TABLE. -/
def itemAction : Item → Action
  | .col c => .addColumn c
  | .con c => .addConstraint c

/-- Several parts, one after the other. -/
def acts (t : Tbl) (as : List Action) : Option Tbl := as.foldlM act t

/-- What a statement does. -/
def step (db : Db) : Stmt → Option Db
  | .createSchema n => some { db with schema := put db.schema n true }
  | .dropSchema n =>
    some { schema := put db.schema n false, table := fun k => if k.1 = n then none else db.table k }
  | .dropTable n => some { db with table := put db.table (key n) none }
  | .createTable n items =>
    if (db.table (key n)).isSome then none
    else (acts emptyTbl (items.map itemAction)).map fun t =>
      { db with table := put db.table (key n) (some t) }
  | .createIndex x =>
    x.table.bind fun n => (db.table (key n)).bind fun t => (act t (.addIndex x)).map fun t =>
      { db with table := put db.table (key n) (some t) }
  | .alterTable n as =>
    (db.table (key n)).bind fun t => (acts t as).map fun t =>
      { db with table := put db.table (key n) (some t) }

/-! ## What a server accepts -/

/-- The columns that a constraint is about. -/
def ConKind.cols : ConKind → List Str
  | .primary cs => cs
  | .unique cs => cs
  | .foreign cs _ => cs
  | _ => []

/-- The constraint is a primary key or a unique constraint. -/
def isKey (c : Con) : Bool :=
  match c.kind with
  | .primary _ => true
  | .unique _ => true
  | _ => false

/-- The columns are those of a key of the table: a primary key, a unique constraint or a unique
index. -/
def Tbl.Key (t : Tbl) (cols : List Str) : Prop :=
  (∃ n c, t.con n = some c ∧ (c.kind = .primary cols ∨ c.kind = .unique cols)) ∨
  ∃ n x, t.idx n = some x ∧ x.unique = true ∧ x.cols = cols.map fun c => .column c false

/-- A table that is in order by itself: it has a column; constraints and indexes are about columns
that exist; keys and indexes have different names. -/
structure Tbl.Sound (t : Tbl) : Prop where
  nonempty : ∃ n, (t.col n).isSome
  con : ∀ n c, t.con n = some c → ∀ x ∈ ConKind.cols c.kind, (t.col x).isSome
  idx : ∀ n x, t.idx n = some x → ∀ y d, IdxCol.column y d ∈ x.cols → (t.col y).isSome
  names : ∀ n c x, t.con n = some c → t.idx n = some x → isKey c = false

/-- What a foreign key references exists and is a key. -/
def Db.Target (db : Db) (cols : List Str) (ref : Ref) : Prop :=
  cols.length = ref.cols.length ∧
  ∃ r, db.table (key ref.table) = some r ∧ (∀ x ∈ ref.cols, (r.col x).isSome) ∧ Tbl.Key r ref.cols

/-- A database that a server accepts: tables are in existing schemas and in order, foreign keys
reference keys, and within a schema the names of foreign keys are distinct. -/
structure Db.Consistent (db : Db) : Prop where
  schema : ∀ k t, db.table k = some t → db.schema k.1 = true
  sound : ∀ k t, db.table k = some t → t.Sound
  fkey : ∀ k t n c cols ref, db.table k = some t → t.con n = some c → c.kind = .foreign cols ref →
    db.Target cols ref
  names : ∀ s a b t u n c d cols ref cols' ref', db.table (s, a) = some t → db.table (s, b) = some u →
    t.con n = some c → u.con n = some d → c.kind = .foreign cols ref → d.kind = .foreign cols' ref' →
    a = b

/-- The server accepts the statements one after the other, and the result is `db'`. -/
def Runs : Db → List Stmt → Db → Prop
  | db, [], db' => db = db'
  | db, st :: r, db' => ∃ m, step db st = some m ∧ m.Consistent ∧ Runs m r db'

/-! ## The database that a catalog describes -/

open CatalogSpec

/-- The table that a catalog table describes; what is ignored is not there. -/
def tblOf (cur coll : Str) (t : Table) : Tbl where
  col n := ((liveColumns t).find? fun c => c.columnName == n).map (colOf .mysql coll false)
  con n := ((liveConstraints t).find? fun c => c.constraintName == n).map (conOf .mysql cur)
  idx n := ((liveIndexes t).find? fun x => x.indexName == n).map (idxOf .mysql cur false true)

/-- The database that a catalog describes; what is ignored is not there. -/
def dbOf (cur coll : Str) (c : Catalog) : Db where
  schema s := hasSchema c s
  table k := ((liveTables c).find? fun t => (t.tableSchema, t.tableName) == k).map (tblOf cur coll)

/-- Of two versions of a thing the new one; if there is none, the old one is kept unless `drop`. -/
def newer {α : Type} (drop : Bool) (old new : Option α) : Option α :=
  match new with
  | some x => some x
  | none => if drop then none else old

/-- Of two versions of a table what a migration aims at. -/
def Tbl.goal (drop : Bool) (old new : Tbl) : Tbl where
  col n := newer drop (old.col n) (new.col n)
  con n := newer drop (old.con n) (new.con n)
  idx n := newer drop (old.idx n) (new.idx n)

/-- What a migration aims at: with `drop` the new database, otherwise the new database with what the
old one has in addition. -/
def Db.goal (drop : Bool) (old new : Db) : Db where
  schema s := new.schema s || (!drop && old.schema s)
  table k :=
    match old.table k, new.table k with
    | some s, some t => some (Tbl.goal drop s t)
    | some s, none => if drop then none else some s
    | none, t => t

end EngineSpec
