import Verif.Model.ScriptKeys

/-!
# What the catalogs of databases say about constraints

From the manuals: the rows that a constraint has in information_schema of MySQL, in the pragmas of
SQLite and in pg_constraint.  Only the types of the rows are those of the model.
-/

namespace KeySpec
open Sqddl.Scripts

/-! ## MySQL -/

/-- a constraint -/
inductive Kind where
  | primary
  | unique
  | foreign (refSchema refTable : Str) (refCols : List Str) (onUpdate onDelete matching : Str)
  | check (clause : Str)
  deriving DecidableEq

/-- a constraint of a table -/
structure Key where
  schema : Str
  table : Str
  name : Str
  kind : Kind
  cols : List Str
  deriving DecidableEq

/-- its row in table_constraints -/
def tcRow (k : Key) : MyTc :=
  ⟨k.schema, k.table, k.name, match k.kind with
    | .primary => b!"PRIMARY KEY"
    | .unique => b!"UNIQUE"
    | .foreign .. => b!"FOREIGN KEY"
    | .check _ => b!"CHECK"⟩

/-- its rows in key_column_usage, numbered from 1 -/
def kcuRows (k : Key) : List MyKcu :=
  match k.kind with
  | .primary | .unique =>
    (k.cols.zipIdx 1).map fun x => ⟨k.schema, k.table, k.name, x.2, x.1, none, none, none⟩
  | .foreign rs rt rc _ _ _ =>
    ((k.cols.zip rc).zipIdx 1).map fun x => ⟨k.schema, k.table, k.name, x.2, x.1.1, some rs, some rt, some x.1.2⟩
  | .check _ => []

/-- its row in referential_constraints -/
def rcRows (k : Key) : List MyRc :=
  match k.kind with
  | .foreign _ _ _ u d m => [⟨k.schema, k.name, u, d, m⟩]
  | _ => []

/-- its row in check_constraints -/
def ccRows (k : Key) : List MyCc :=
  match k.kind with
  | .check e => [⟨k.schema, k.name, e⟩]
  | _ => []

/-- information_schema of a MySQL server with these constraints, its rows in any order -/
structure MyShows (db : List Key) (c : MyInfo) : Prop where
  tc : c.tc.Perm (db.map tcRow)
  kcu : c.kcu.Perm (db.flatMap kcuRows)
  rc : c.rc.Perm (db.flatMap rcRows)
  cc : c.cc.Perm (db.flatMap ccRows)

/-- What MySQL demands: foreign keys have as many columns as they reference, keys have columns, and
the names of foreign keys are unique in a database. -/
structure MyValid (db : List Key) : Prop where
  nodup : db.Nodup
  cols : ∀ k ∈ db, (∀ e, k.kind ≠ .check e) → k.cols ≠ []
  foreign : ∀ k ∈ db, ∀ rs rt rc u d m, k.kind = .foreign rs rt rc u d m → rc.length = k.cols.length
  foreignNames : ∀ k ∈ db, ∀ k' ∈ db, rcRows k ≠ [] → rcRows k' ≠ [] → k.schema = k'.schema →
    k.name = k'.name → k = k'

/-- No two keys of a table have the same name. -/
def MyApart (db : List Key) : Prop :=
  ∀ k ∈ db, ∀ k' ∈ db, (∀ e, k.kind ≠ .check e) → (∀ e, k'.kind ≠ .check e) → k.schema = k'.schema →
    k.table = k'.table → k.name = k'.name → k = k'

/-- No constraint has the name of a check in the same database. -/
def MyChecksApart (db : List Key) : Prop :=
  ∀ k ∈ db, ∀ k' ∈ db, ∀ e, k'.kind = .check e → k.schema = k'.schema → k.name = k'.name → k = k'

/-! ## SQLite -/

/-- a foreign key; `refCols` is empty if the columns were not written -/
structure LiteFkey where
  id : Nat
  cols : List Str
  refTable : Str
  refCols : List Str
  onUpdate : Str
  onDelete : Str

/-- a table: the unique constraints with the names of their indexes -/
structure LiteTable where
  name : Str
  sql : Str
  primary : List Str
  uniques : List (Str × List Str)
  fkeys : List LiteFkey

/-- sqlite_schema and the pragmas for these tables -/
structure LiteShows (db : List LiteTable) (c : LiteInfo) : Prop where
  rows : (c.rows.filter (fun m => m.type == b!"table")).Perm (db.map fun t => ⟨b!"table", t.name, t.sql⟩)
  info : ∀ t ∈ db, ((c.info t.name).filter (fun x => 0 < x.2)).Perm (t.primary.zipIdx 1)
  indexes : ∀ t ∈ db, ((c.indexes t.name).filter (fun i => i.2.1 && i.2.2 == 'u')).Perm
    (t.uniques.map fun u => (u.1, true, 'u'))
  columns : ∀ t ∈ db, ∀ u ∈ t.uniques, (c.columns u.1).Perm (u.2.zipIdx.map fun x => (x.2, x.1))
  fkeys : ∀ t ∈ db, (c.fkeys t.name).Perm (t.fkeys.flatMap fun k => k.cols.zipIdx.map fun x =>
    ⟨k.id, x.2, k.refTable, x.1, k.refCols[x.2]?, k.onUpdate, k.onDelete⟩)

/-- What SQLite demands: names of tables and of the indexes of a table, and numbers of foreign keys, are
different; keys have columns, and foreign keys as many as they reference. -/
structure LiteValid (db : List LiteTable) : Prop where
  names : (db.map (·.name)).Nodup
  uniques : ∀ t ∈ db, (t.uniques.map (·.1)).Nodup ∧ ∀ u ∈ t.uniques, u.2 ≠ []
  fkeys : ∀ t ∈ db, (t.fkeys.map (·.id)).Nodup ∧
    ∀ k ∈ t.fkeys, k.cols ≠ [] ∧ (k.refCols = [] ∨ k.refCols.length = k.cols.length)

/-! ## Postgres -/

/-- the names of the columns of a table with these numbers, in their order -/
def Named (attributes : List PgAttribute) (rel : Nat) : List Int → List Str → Prop
  | [], [] => True
  | n :: ns, s :: ss =>
    (∃ a ∈ attributes, a.attrelid = rel ∧ a.attnum = n ∧ a.attname = s) ∧ Named attributes rel ns ss
  | _, _ => False

/-- the letters of pg_constraint for the actions of a foreign key -/
def actions : List (Char × Str) :=
  [('a', b!"NO ACTION"), ('r', b!"RESTRICT"), ('c', b!"CASCADE"), ('n', b!"SET NULL"), ('d', b!"SET DEFAULT")]

/-- the letters of pg_constraint for the matching of a foreign key; simple matching is the default -/
def matchings : List (Char × Str) := [('s', []), ('f', b!"MATCH FULL"), ('p', b!"MATCH PARTIAL")]

/-- What Postgres demands of its catalogs: names and numbers identify, and the numbers of the columns of
a constraint are those of columns. -/
structure PgValid (c : PgInfo) : Prop where
  schemaIds : (c.namespaces.map (·.oid)).Nodup
  schemaNames : (c.namespaces.map (·.nspname)).Nodup
  tableIds : (c.classes.map (·.oid)).Nodup
  tableNames : (c.classes.map (fun t => (t.relnamespace, t.relname))).Nodup
  columnIds : (c.attributes.map (fun a => (a.attrelid, a.attnum))).Nodup
  keyNames : (c.keys.map (fun k => (k.conrelid, k.conname))).Nodup
  cols : ∀ k ∈ c.keys, k.contype = 'p' ∨ k.contype = 'u' ∨ k.contype = 'f' →
    k.conkey ≠ [] ∧ ∃ names, Named c.attributes k.conrelid k.conkey names
  refs : ∀ k ∈ c.keys, k.contype = 'f' →
    k.confkey.length = k.conkey.length ∧ (∃ names, Named c.attributes k.confrelid k.confkey names) ∧
    k.confupdtype ∈ actions.map (·.1) ∧ k.confdeltype ∈ actions.map (·.1) ∧ k.confmatchtype ∈ matchings.map (·.1)

end KeySpec
