import Verif.Spec.PgEngine
import Verif.Spec.MsText

/-!
# A SQL Server database that runs DDL statements

An abstract SQL Server: `effect` is what a statement does to the schemas, tables, columns, constraints
and indexes, and `Accepts` is when the server does not refuse it.  Where the manual leaves room,
`Accepts` demands more than the server does.

* ALTER COLUMN takes the type, the collation and NULL or NOT NULL from the statement: a collation that
  is not mentioned becomes the default one, and a column without NOT NULL becomes NULL.
* ALTER COLUMN and DROP COLUMN are refused while a constraint, an index or a computed column uses the
  column; nothing is dropped along with a column.  A column with a default cannot be dropped, and it
  keeps the name of its type and its collation.
* A primary key demands that its columns are NOT NULL.
* Tables and constraints of a schema share their names; so do the indexes and the keys of a table.
* A table with a foreign key to it, and a schema with a table, cannot be dropped.

Simplifications: the rows of the tables are not looked at (a statement can also fail because of the
rows); neither are types other than by their first word, the order of the columns, the names of default
constraints, restrictions on cycles of cascading foreign keys, views, triggers and routines.  Names are
compared as they are written.  Expressions are looked at word by word: every word that is the name of a
column, in upper or lower case, mentions it.
-/

namespace MsSpec
open SqlSpec Sqddl DdlText EngineSpec
open MsText (Act)

/-- The word is the name of this column. -/
def names (n : Str) : Tok → Bool
  | .quoted m => Go.toLower m == Go.toLower n
  | .word w => Go.toLower w == Go.toLower n
  | _ => false

/-- The constraint is about the column. -/
def conUses (n : Str) (c : Con) : Bool :=
  match c.kind with
  | .primary cs => cs.contains n
  | .unique cs => cs.contains n
  | .foreign cs _ => cs.contains n
  | .check ts => ts.any (names n)
  | .exclude _ _ _ => true

/-- The index is about the column. -/
def idxUses (n : Str) (x : Idx) : Bool :=
  x.cols.any (fun
    | .column c _ => c == n
    | .expr ts _ => ts.any (names n)) ||
  x.incl.contains n || x.pred.any (names n)

/-- The values of the column are computed from the other one. -/
def generatedFrom (n : Str) (c : Col) : Bool :=
  match c.generated with
  | some (ts, _) => ts.any (names n)
  | none => false

/-- The columns of an index that are named. -/
def idxNames (x : Idx) : List Str :=
  x.cols.filterMap fun
    | .column c _ => some c
    | .expr _ _ => none

/-- The schema has a table or a constraint of this name; they share their names. -/
def Object (db : Db) (s n : Str) : Prop :=
  (∃ t, db.table (s, n) = some t) ∨ ∃ a t c, db.table (s, a) = some t ∧ t.con n = some c

/-- There is a foreign key to these columns of the table, in any order. -/
def Referenced (db : Db) (k : Key) (cols : List Str) : Prop :=
  ∃ k' t n c cs ref, db.table k' = some t ∧ t.con n = some c ∧ c.kind = .foreign cs ref ∧
    key ref.table = k ∧ ref.cols.Perm cols

/-- The columns are those of a key that a foreign key can reference: a primary key, a unique
constraint, or a unique index of all rows. -/
def TargetKey (t : Tbl) (cols : List Str) : Prop :=
  (∃ n c, t.con n = some c ∧ (c.kind = .primary cols ∨ c.kind = .unique cols)) ∨
  ∃ n x, t.idx n = some x ∧ x.unique = true ∧ x.cols = (cols.map fun c => .column c false) ∧ x.pred = []

/-- What a foreign key references exists and is a key. -/
def Target (db : Db) (cols : List Str) (ref : Ref) : Prop :=
  cols.length = ref.cols.length ∧
  ∃ r, db.table (key ref.table) = some r ∧ (∀ x ∈ ref.cols, (r.col x).isSome) ∧
    ∃ cs, ref.cols.Perm cs ∧ TargetKey r cs

/-- A column that can be added: its constraints are not part of the definition, of a default, an
identity and an expression it has at most one, and an identity column is NOT NULL. -/
def addable (c : Col) : Bool :=
  !c.primary && !c.unique && c.ref.isNone &&
  (c.default.isNone || c.identity.isNone) && (c.default.isNone || c.generated.isNone) &&
  (c.identity.isNone || c.generated.isNone) && (c.identity.isNone || c.notNull)

/-! ## Parts of ALTER TABLE -/

/-- The column after ALTER COLUMN. -/
def altered (c : Col) (ty : List Tok) (coll : Option Tok) (nn : Option Bool) : Col :=
  { c with type := ty, collation := coll, notNull := nn == some true }

/-- What a part of ALTER TABLE does to the table. -/
def eff (t : Tbl) : Act → Tbl
  | .dropConstraint n => { t with con := put t.con n none }
  | .dropColumn n => { t with col := put t.col n none }
  | .addColumn c => { t with col := put t.col c.name (some c) }
  | .addConstraint c => { t with con := put t.con (c.name.getD []) (some c) }
  | .addDefault e n =>
    { t with col := put t.col n ((t.col n).map fun c => { c with default := some e }) }
  | .alterColumn n ty coll nn => { t with col := put t.col n ((t.col n).map fun c => altered c ty coll nn) }

/-- A new constraint is not refused: it has a name that is free, it is about columns that exist, a
table has one primary key, on columns that are NOT NULL, and a foreign key references a key. -/
structure ConOk (db : Db) (k : Key) (t : Tbl) (c : Con) : Prop where
  name : ∃ n, c.name = some n ∧ ¬ Object db k.1 n ∧ (isKey c = true → t.idx n = none)
  cols : ∀ x ∈ ConKind.cols c.kind, (t.col x).isSome
  primary : ∀ cs, c.kind = .primary cs → (∀ n d ds, t.con n = some d → d.kind ≠ .primary ds) ∧
    ∀ x ∈ cs, ∀ d, t.col x = some d → d.notNull = true
  foreign : ∀ cs ref, c.kind = .foreign cs ref → Target db cs ref
  exclude : ∀ a b p, c.kind ≠ .exclude a b p

/-- Nothing uses the column. -/
structure Unused (t : Tbl) (n : Str) : Prop where
  con : ∀ m c, t.con m = some c → conUses n c = false
  idx : ∀ m x, t.idx m = some x → idxUses n x = false
  col : ∀ m c, t.col m = some c → m ≠ n → generatedFrom n c = false

/-- A part of ALTER TABLE is not refused. -/
def Ok (db : Db) (k : Key) (t : Tbl) : Act → Prop
  | .dropConstraint n => ∃ c, t.con n = some c ∧
    ∀ cols, c.kind = .primary cols ∨ c.kind = .unique cols → ¬ Referenced db k cols
  | .dropColumn n => (∃ c, t.col n = some c ∧ c.default = none) ∧ Unused t n ∧
    ∃ m, m ≠ n ∧ (t.col m).isSome
  | .addColumn c => t.col c.name = none ∧ addable c = true ∧
    (c.identity.isSome → ∀ m d, t.col m = some d → d.identity = none)
  | .addConstraint c => ConOk db k t c
  | .addDefault _ n => ∃ c, t.col n = some c ∧ c.default = none ∧ c.identity = none ∧ c.generated = none
  | .alterColumn n ty coll nn => ∃ c, t.col n = some c ∧ c.generated = none ∧
    (c.default ≠ none → c.type.head? = ty.head? ∧ c.collation = coll) ∧
    (c.identity.isSome → nn = some true) ∧ Unused t n

/-! ## Looking up default constraints -/

/-- The numbers of the columns (`column_id` of sys.columns): of those of tables, and those that a
column of this name has in anything else, such as a view or a system table. -/
structure Numbers where
  num : Key → Str → Nat
  other : Str → Nat → Prop

/-- The rows that the block finds which is to drop the default of the column `c` of the table `k`: the
defaults of all columns `d` of the table whose number is that of *some* column called `c`. -/
def Candidate (N : Numbers) (db : Db) (k : Key) (c d : Str) : Prop :=
  (∃ t x, db.table k = some t ∧ t.col d = some x ∧ x.default.isSome) ∧
  (N.other c (N.num k d) ∨ ∃ k' t', db.table k' = some t' ∧ (t'.col c).isSome ∧ N.num k' c = N.num k d)

/-! ## Statements -/

/-- A part of ALTER TABLE takes effect. -/
def onTable (db : Db) (k : Key) (a : Act) : Db :=
  { db with table := put db.table k ((db.table k).map fun t => eff t a) }

/-- The table exists, and the parts are not refused. -/
def OkAll (db : Db) (k : Key) : List Act → Prop
  | [] => (db.table k).isSome
  | a :: r => (∃ t, db.table k = some t ∧ Ok db k t a) ∧ OkAll (onTable db k a) k r

/-- An item of CREATE TABLE is added like a part of ALTER TABLE. -/
def itemAct : Item → Act
  | .col c => .addColumn c
  | .con c => .addConstraint c

/-- The database with an empty table. -/
def withEmpty (db : Db) (k : Key) : Db := { db with table := put db.table k (some emptyTbl) }

/-- The default of a column is removed. -/
def noDefault (t : Tbl) (c : Str) : Tbl :=
  { t with col := put t.col c ((t.col c).map fun x => { x with default := none }) }

/-- The table of this name is changed. -/
def changeTable (db : Db) (k : Key) (f : Tbl → Tbl) : Db :=
  { db with table := put db.table k ((db.table k).map f) }

/-- What a statement does. -/
def effect (db : Db) : MsText.Stmt → Db
  | .base (.createTable n items) =>
    (items.map itemAct).foldl (fun db a => onTable db (key n) a) (withEmpty db (key n))
  | .base (.createIndex x) =>
    match x.table with
    | none => db
    | some n => changeTable db (key n) fun t => { t with idx := put t.idx x.name (some (plainIdx x)) }
  | .base _ => db
  | .createSchema guard n => if db.schema guard then db else { db with schema := put db.schema n true }
  | .dropSchema n => { db with schema := put db.schema n false }
  | .drop .table n => { db with table := put db.table (key n) none }
  | .drop _ _ => db
  | .dropIndex x n => changeTable db (key n) fun t => { t with idx := put t.idx x none }
  | .alter n a => onTable db (key n) a
  | .dropDefault _ _ c n => changeTable db (key n) fun t => noDefault t c

/-- The server does not refuse the statement.  The block that drops a default names its table twice,
and it drops the default that is meant if no other default is found. -/
def Accepts (N : Numbers) (db : Db) : MsText.Stmt → Prop
  | .base (.createTable n items) => db.schema (key n).1 = true ∧ ¬ Object db (key n).1 (key n).2 ∧
    OkAll (withEmpty db (key n)) (key n) (items.map itemAct)
  | .base (.createIndex x) => ∃ n t, x.table = some n ∧ db.table (key n) = some t ∧
    t.idx x.name = none ∧ (∀ c, t.con x.name = some c → isKey c = false) ∧
    (∀ y ∈ idxNames x ++ x.incl, (t.col y).isSome) ∧ (∀ ts d, IdxCol.expr ts d ∉ x.cols)
  | .base _ => False
  | .createSchema guard n => db.schema guard = true ∨ db.schema n = false
  | .dropSchema n => db.schema n = true ∧ ∀ k t, db.table k = some t → k.1 ≠ n
  | .drop .table n => (db.table (key n)).isSome ∧ ∀ k t m c cs ref, db.table k = some t →
    t.con m = some c → c.kind = .foreign cs ref → key ref.table = key n → k = key n
  | .drop _ _ => True
  | .dropIndex x n => ∃ t y, db.table (key n) = some t ∧ t.idx x = some y ∧
    (y.unique = true → ¬ Referenced db (key n) (idxNames y))
  | .alter n a => ∃ t, db.table (key n) = some t ∧ Ok db (key n) t a
  | .dropDefault s t c n => key n = (s, t) ∧ (∀ d, Candidate N db (s, t) c d → d = c) ∧
    ∃ u x, db.table (s, t) = some u ∧ u.col c = some x ∧ x.default.isSome

/-- The server accepts the statements one after the other, and the result is `db'`. -/
def Runs (N : Numbers) : Db → List MsText.Stmt → Db → Prop
  | db, [], db' => db = db'
  | db, st :: r, db' => Accepts N db st ∧ Runs N (effect db st) r db'

/-! ## The database that a catalog describes -/

open CatalogSpec

/-- The table that a catalog table describes; what is ignored is not there. -/
def tblOf (cur coll : Str) (t : Table) : Tbl where
  col n := ((liveColumns t).find? fun c => c.columnName == n).map (colOf .sqlserver coll false)
  con n := ((liveConstraints t).find? fun c => c.constraintName == n).map (conOf .sqlserver cur)
  idx n := ((liveIndexes t).find? fun x => x.indexName == n).map (idxOf .sqlserver cur false true)

/-- The database that a catalog describes; what is ignored is not there. -/
def dbOf (cur coll : Str) (c : Catalog) : Db where
  schema s := hasSchema c s
  table k := ((liveTables c).find? fun t => (t.tableSchema, t.tableName) == k).map (tblOf cur coll)

end MsSpec
