import Verif.Spec.Engine
import Verif.Spec.PgText

/-!
# A Postgres database that runs DDL statements

An abstract Postgres server: `effect` is what a statement does to the schemas, tables, columns,
constraints and indexes, and `Accepts` is when the server does not refuse it.  Where the manual leaves
room, `Accepts` demands more than the server does.

Simplifications: the rows of the tables are not looked at (a statement can also fail because of the
rows); neither are types (a default or an index may not fit a new type), the order of the columns,
sequences, views, triggers and routines.  The parts of an ALTER TABLE take effect one after the other.
Expressions are looked at word by word: every word that is the name of a column mentions it.
-/

namespace PgSpec
open SqlSpec Sqddl DdlText PgText EngineSpec
open PgText (Act Stmt)

/-- The word is the name of this column. -/
def names (n : Str) : Tok → Bool
  | .quoted m => m == n
  | .word w => Go.toLower w == n
  | _ => false

/-- The constraint is about the column. -/
def conUses (n : Str) (c : Con) : Bool :=
  match c.kind with
  | .primary cs => cs.contains n
  | .unique cs => cs.contains n
  | .foreign cs _ => cs.contains n
  | .check ts => ts.any (names n)
  | .exclude _ es p => es.any (fun e => e.1.any (names n)) || (p.getD []).any (names n)

/-- The index is about the column. -/
def idxUses (n : Str) (x : Idx) : Bool :=
  x.cols.any (fun
    | .column c _ => c == n
    | .expr ts _ => ts.any (names n)) ||
  x.incl.contains n || x.pred.any (names n)

/-- The values of the column are computed from the other one. -/
def generatedFrom (n : Str) (c : Col) : Bool :=
  match c.generated with
  | some (ts, _) => ts.any (names n)
  | none => false

/-- The constraint is kept by an index of the same name. -/
def owns (c : Con) : Bool :=
  match c.kind with
  | .primary _ => true
  | .unique _ => true
  | .exclude _ _ _ => true
  | _ => false

/-- The schema has a table or an index of this name; they share their names. -/
def Relation (db : Db) (s n : Str) : Prop :=
  (∃ t, db.table (s, n) = some t) ∨
  ∃ a t, db.table (s, a) = some t ∧ ((∃ x, t.idx n = some x) ∨ ∃ c, t.con n = some c ∧ owns c = true)

/-- There is a foreign key to these columns of the table, in any order. -/
def Referenced (db : Db) (k : Key) (cols : List Str) : Prop :=
  ∃ k' t n c cs ref, db.table k' = some t ∧ t.con n = some c ∧ c.kind = .foreign cs ref ∧
    key ref.table = k ∧ ref.cols.Perm cols

/-- There is a foreign key to the table in which the column takes part. -/
def ColumnReferenced (db : Db) (k : Key) (x : Str) : Prop :=
  ∃ k' t n c cs ref, db.table k' = some t ∧ t.con n = some c ∧ c.kind = .foreign cs ref ∧
    key ref.table = k ∧ x ∈ ref.cols

/-- The columns of the index, if it has nothing but columns. -/
def plainCols (cs : List Str) : List IdxCol := cs.map fun c => .column c false

/-- The columns are those of a key that a foreign key can reference: a primary key or a unique
constraint that is not deferrable, or a unique index of all rows. -/
def TargetKey (t : Tbl) (cols : List Str) : Prop :=
  (∃ n c, t.con n = some c ∧ (c.kind = .primary cols ∨ c.kind = .unique cols) ∧
    c.deferrable = false) ∨
  ∃ n x, t.idx n = some x ∧ x.unique = true ∧ x.cols = plainCols cols ∧ x.pred = []

/-- What a foreign key references exists and is a key. -/
def Target (db : Db) (cols : List Str) (ref : Ref) : Prop :=
  cols.length = ref.cols.length ∧
  ∃ r, db.table (key ref.table) = some r ∧ (∀ x ∈ ref.cols, (r.col x).isSome) ∧
    ∃ cs, ref.cols.Perm cs ∧ TargetKey r cs

/-! ## Columns -/

/-- What ALTER COLUMN does to a column; `none` if it is refused.  A change of type without COLLATE
takes the default collation of the type; the default of an identity column or of a generated column
cannot be changed; an identity column is NOT NULL and has no default. -/
def colAct (c : Col) : Act → Option Col
  | .setType _ ty coll =>
    if coll = some (.quoted []) then none else some { c with type := ty, collation := coll }
  | .dropDefault _ =>
    if c.identity.isSome || c.generated.isSome then none else some { c with default := none }
  | .setDefault _ e =>
    if c.identity.isSome || c.generated.isSome then none else some { c with default := some e }
  | .dropNotNull _ => if c.identity.isSome then none else some { c with notNull := false }
  | .setNotNull _ => some { c with notNull := true }
  | .dropIdentity _ => if c.identity.isSome then some { c with identity := none } else none
  | .addIdentity _ i =>
    if c.notNull && c.identity.isNone && c.default.isNone && c.generated.isNone then
      some { c with identity := some i }
    else none
  | _ => none

/-- The columns with these ones NOT NULL. -/
def notNulls (cs : List Str) (f : Str → Option Col) : Str → Option Col :=
  fun n => if cs.contains n then (f n).map fun c => { c with notNull := true } else f n

/-- A column that can be added: its constraints are not part of the definition, and of a default, an
identity and an expression it has at most one. -/
def addable (c : Col) : Bool :=
  !c.primary && !c.unique && c.ref.isNone &&
  (c.default.isNone || c.identity.isNone) && (c.default.isNone || c.generated.isNone) &&
  (c.identity.isNone || c.generated.isNone) && (c.identity.isNone || c.notNull)

/-! ## Parts of ALTER TABLE -/

/-- A primary key makes its columns NOT NULL. -/
def colsWith (c : Con) (f : Str → Option Col) : Str → Option Col :=
  match c.kind with
  | .primary cs => notNulls cs f
  | _ => f

/-- The columns of an index that are named. -/
def idxNames (x : Idx) : List Str :=
  x.cols.filterMap fun
    | .column c _ => some c
    | .expr _ _ => none

/-- The constraint that an index becomes. -/
def keyFrom (n : Str) (primary : Bool) (x : Idx) : Con where
  name := some n
  kind := if primary then .primary (idxNames x) else .unique (idxNames x)
  deferrable := false
  initiallyDeferred := false
  notValid := false

/-- What a part of ALTER TABLE does to the table. -/
def eff (t : Tbl) : Act → Tbl
  | .dropConstraint _ n => { t with con := put t.con n none }
  | .dropColumn n => {
      col := put t.col n none
      con := fun m => (t.con m).filter fun c => !conUses n c
      idx := fun m => (t.idx m).filter fun x => !idxUses n x }
  | .addColumn c => { t with col := put t.col c.name (some c) }
  | .addConstraint c => { t with
      con := put t.con (c.name.getD []) (some c)
      col := colsWith c t.col }
  | .addKeyUsing n p i =>
    match t.idx i with
    | none => t
    | some x => {
        con := put t.con n (some (keyFrom n p x))
        col := colsWith (keyFrom n p x) t.col
        idx := put t.idx i none }
  | .alterConstraint n d i => { t with
      con := put t.con n ((t.con n).map fun c => { c with deferrable := d, initiallyDeferred := i }) }
  | .validate n => { t with con := put t.con n ((t.con n).map fun c => { c with notValid := false }) }
  | .setType n ty coll => { t with col := put t.col n ((t.col n).bind fun c => colAct c (.setType n ty coll)) }
  | .dropDefault n => { t with col := put t.col n ((t.col n).bind fun c => colAct c (.dropDefault n)) }
  | .setDefault n e => { t with col := put t.col n ((t.col n).bind fun c => colAct c (.setDefault n e)) }
  | .dropNotNull n => { t with col := put t.col n ((t.col n).bind fun c => colAct c (.dropNotNull n)) }
  | .setNotNull n => { t with col := put t.col n ((t.col n).bind fun c => colAct c (.setNotNull n)) }
  | .dropIdentity n => { t with col := put t.col n ((t.col n).bind fun c => colAct c (.dropIdentity n)) }
  | .addIdentity n i => { t with col := put t.col n ((t.col n).bind fun c => colAct c (.addIdentity n i)) }

/-- The column exists, and the change of the column is not refused. -/
def ColOk (t : Tbl) (n : Str) (a : Act) : Prop := ∃ c c', t.col n = some c ∧ colAct c a = some c'

/-- A new constraint is not refused: it has a name that is free, it is about columns that exist, and
a foreign key references a key. -/
structure ConOk (db : Db) (k : Key) (t : Tbl) (c : Con) : Prop where
  name : ∃ n, c.name = some n ∧ t.con n = none ∧ (owns c = true → ¬ Relation db k.1 n)
  cols : ∀ x ∈ ConKind.cols c.kind, (t.col x).isSome
  primary : ∀ cs, c.kind = .primary cs → ∀ n d ds, t.con n = some d → d.kind ≠ .primary ds
  foreign : ∀ cs ref, c.kind = .foreign cs ref → Target db cs ref
  deferred : c.initiallyDeferred = true → c.deferrable = true

/-- A part of ALTER TABLE is not refused. -/
def Ok (db : Db) (k : Key) (t : Tbl) : Act → Prop
  | .dropConstraint ifExists n =>
    (ifExists = true ∨ (t.con n).isSome) ∧
    ∀ c cols, t.con n = some c → c.kind = .primary cols ∨ c.kind = .unique cols →
      ¬ Referenced db k cols
  | .dropColumn n =>
    ¬ ColumnReferenced db k n ∧ ∀ m c, t.col m = some c → m ≠ n → generatedFrom n c = false
  | .addColumn c => t.col c.name = none ∧ addable c = true
  | .addConstraint c => ConOk db k t c
  | .addKeyUsing n p i => n = i ∧ t.con n = none ∧
    (∃ x, t.idx i = some x ∧ x.unique = true ∧ x.pred = [] ∧ x.incl = [] ∧ x.method = none ∧
      x.cols = plainCols (idxNames x)) ∧
    (p = true → ∀ m d ds, t.con m = some d → d.kind ≠ .primary ds)
  | .alterConstraint n d i =>
    (∃ c cs ref, t.con n = some c ∧ c.kind = .foreign cs ref) ∧ (i = true → d = true)
  | .validate n => ∃ c, t.con n = some c ∧
    ((∃ cs ref, c.kind = .foreign cs ref) ∨ ∃ ts, c.kind = .check ts)
  | .setType n ty coll => ColOk t n (.setType n ty coll) ∧
    ∀ m c, t.col m = some c → generatedFrom n c = false
  | .dropNotNull n => ColOk t n (.dropNotNull n) ∧
    ∀ m c cs, t.con m = some c → c.kind = .primary cs → n ∉ cs
  | .dropDefault n => ColOk t n (.dropDefault n)
  | .setDefault n e => ColOk t n (.setDefault n e)
  | .setNotNull n => ColOk t n (.setNotNull n)
  | .dropIdentity n => ColOk t n (.dropIdentity n)
  | .addIdentity n i => ColOk t n (.addIdentity n i)

/-! ## Statements -/

/-- A part of ALTER TABLE takes effect. -/
def onTable (db : Db) (k : Key) (a : Act) : Db :=
  { db with table := put db.table k ((db.table k).map fun t => eff t a) }

/-- The table exists, and the parts are not refused. -/
def OkAll (db : Db) (k : Key) : List Act → Prop
  | [] => (db.table k).isSome
  | a :: r => (∃ t, db.table k = some t ∧ Ok db k t a) ∧ OkAll (onTable db k a) k r

/-- An item of CREATE TABLE is added like a part of ALTER TABLE. -/
def itemAct : Item → Act
  | .col c => .addColumn c
  | .con c => .addConstraint c

/-- The database with an empty table. -/
def withEmpty (db : Db) (k : Key) : Db := { db with table := put db.table k (some emptyTbl) }

/-- The constraint references a table of the schema. -/
def intoSchema (s : Str) (c : Con) : Bool :=
  match c.kind with
  | .foreign _ ref => (key ref.table).1 == s
  | _ => false

/-- What a statement does. -/
def effect (db : Db) : PgText.Stmt → Db
  | .base (.createSchema n) => { db with schema := put db.schema n true }
  | .base (.dropTable n) => { db with table := put db.table (key n) none }
  | .base (.createTable n items) =>
    (items.map itemAct).foldl (fun db a => onTable db (key n) a) (withEmpty db (key n))
  | .base (.createIndex x) =>
    match x.table with
    | none => db
    | some n => { db with table := put db.table (key n) ((db.table (key n)).map fun t =>
        { t with idx := put t.idx x.name (some (plainIdx x)) }) }
  | .base (.dropSchema _) => db
  | .base (.alterTable _ _) => db
  | .dropSchemaCascade s => {
      schema := put db.schema s false
      table := fun k => if k.1 = s then none else (db.table k).map fun t =>
        { t with con := fun n => (t.con n).filter fun c => !intoSchema s c } }
  | .dropIndex n => { db with
      table := fun k => if k.1 = (key n).1 then (db.table k).map fun t =>
        { t with idx := put t.idx n.2 none } else db.table k }
  | .alter n as => as.foldl (fun db a => onTable db (key n) a) db

/-- The server does not refuse the statement.  A table can be dropped if no other table references
it, an index if no constraint is kept by it and no foreign key needs it. -/
def Accepts (db : Db) : PgText.Stmt → Prop
  | .base (.createSchema _) => True
  | .base (.dropTable n) => ∀ k t m c cs ref, db.table k = some t → t.con m = some c →
      c.kind = .foreign cs ref → key ref.table = key n → k = key n
  | .base (.createTable n items) => db.schema (key n).1 = true ∧ ¬ Relation db (key n).1 (key n).2 ∧
    OkAll (withEmpty db (key n)) (key n) (items.map itemAct)
  | .base (.createIndex x) => ∃ n t, x.table = some n ∧ db.table (key n) = some t ∧
    ¬ Relation db (key n).1 x.name ∧ (∀ y ∈ idxNames x ++ x.incl, (t.col y).isSome)
  | .base (.dropSchema _) => False
  | .base (.alterTable _ _) => False
  | .dropSchemaCascade _ => True
  | .dropIndex n => ∀ a t, db.table ((key n).1, a) = some t →
    (∀ c, t.con n.2 = some c → owns c = false) ∧
    ∀ x, t.idx n.2 = some x → x.unique = true → ¬ Referenced db ((key n).1, a) (idxNames x)
  | .alter n as => OkAll db (key n) as

/-- The server accepts the statements one after the other, and the result is `db'`. -/
def Runs : Db → List PgText.Stmt → Db → Prop
  | db, [], db' => db = db'
  | db, st :: r, db' => Accepts db st ∧ Runs (effect db st) r db'

/-! ## The database that a catalog describes -/

open CatalogSpec

/-- The table that a catalog table describes; what is ignored is not there. -/
def tblOf (cur coll : Str) (t : Table) : Tbl where
  col n := ((liveColumns t).find? fun c => c.columnName == n).map (colOf .postgres coll false)
  con n := ((liveConstraints t).find? fun c => c.constraintName == n).map (conOf .postgres cur)
  idx n := ((liveIndexes t).find? fun x => x.indexName == n).map (idxOf .postgres cur false true)

/-- The database that a catalog describes; what is ignored is not there. -/
def dbOf (cur coll : Str) (c : Catalog) : Db where
  schema s := hasSchema c s
  table k := ((liveTables c).find? fun t => (t.tableSchema, t.tableName) == k).map (tblOf cur coll)

end PgSpec
