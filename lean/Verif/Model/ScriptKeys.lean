import Verif.Model.ScriptRows

/-!
# Model of the introspection scripts: constraints

The queries in /repo/ddl/introspection_scripts/*_constraints.sql: their joins over the catalog tables
and the grouping of the columns of a constraint.  Simplified: the order of the rows that are reported
is left out, lists of columns are lists (their texts with commas are in `Model/IntrospectRows`), names
are compared with `=` exactly, the length of `group_concat` is not limited.
-/

namespace Sqddl.Scripts

/-! ## Grouping -/

/-- insertion by number (`ORDER BY seq`,
/repo/ddl/introspection_scripts/postgres_constraints.sql:29) -/
def putSeq {C : Type} (x : Nat × C) : List (Nat × C) → List (Nat × C)
  | [] => [x]
  | y :: l => if x.1 ≤ y.1 then x :: y :: l else y :: putSeq x l

/-- `ORDER BY seq` (/repo/ddl/introspection_scripts/postgres_constraints.sql:29); in SQLite the order of
the subquery, in which `group_concat` meets the rows
(/repo/ddl/introspection_scripts/sqlite_constraints.sql:44-46, 87-88, 130-131) -/
def sortSeq {C : Type} : List (Nat × C) → List (Nat × C)
  | [] => []
  | x :: l => putSeq x (sortSeq l)

/-- The groups of `GROUP BY` (/repo/ddl/introspection_scripts/postgres_constraints.sql:74-79): each key
once. -/
def keysOf {K : Type} [DecidableEq K] : List K → List K
  | [] => []
  | k :: l => if k ∈ l then keysOf l else k :: keysOf l

/-- `SELECT key, json_agg(column ORDER BY seq) FROM rows GROUP BY key`
(/repo/ddl/introspection_scripts/postgres_constraints.sql:24-79, mysql_constraints.sql:20-55,
sqlite_constraints.sql:13-49) -/
def grouped {K C : Type} [DecidableEq K] (rows : List (K × Nat × C)) : List (K × List C) :=
  (keysOf (rows.map (·.1))).map fun k =>
    (k, (sortSeq ((rows.filter (fun r => r.1 = k)).map (·.2))).map (·.2))

/-! ## MySQL -/

/-- a row of information_schema.table_constraints
(/repo/ddl/introspection_scripts/mysql_constraints.sql:34) -/
structure MyTc where
  schema : Str
  table : Str
  name : Str
  type : Str

/-- a row of information_schema.key_column_usage
(/repo/ddl/introspection_scripts/mysql_constraints.sql:35, 103-106) -/
structure MyKcu where
  schema : Str
  table : Str
  name : Str
  pos : Nat
  column : Str
  refSchema : Option Str
  refTable : Option Str
  refColumn : Option Str

/-- a row of information_schema.referential_constraints
(/repo/ddl/introspection_scripts/mysql_constraints.sql:107-109, 114) -/
structure MyRc where
  schema : Str
  name : Str
  updateRule : Str
  deleteRule : Str
  matchOption : Str

/-- a row of information_schema.check_constraints
(/repo/ddl/introspection_scripts/mysql_constraints.sql:155-158) -/
structure MyCc where
  schema : Str
  name : Str
  clause : Str

/-- the tables of information_schema that mysql_constraints.sql reads
(/repo/ddl/introspection_scripts/mysql_constraints.sql:34-35, 112-114, 157-158) -/
structure MyInfo where
  tc : List MyTc
  kcu : List MyKcu
  rc : List MyRc
  cc : List MyCc

/-- the conditions on schemas and tables
(/repo/ddl/introspection_scripts/mysql_constraints.sql:38-50, 77-89, 117-129, 161-173) -/
def myTable (f : Filter) (t : MyTc) : Bool := myShown f t.schema && passes f.tables f.excludeTables t.table

/-- `USING (constraint_schema, constraint_name, table_name)`
(/repo/ddl/introspection_scripts/mysql_constraints.sql:35) -/
def myJoin (t : MyTc) (u : MyKcu) : Bool := t.schema == u.schema && t.name == u.name && t.table == u.table

/-- Primary keys and unique constraints: schema, table and name, with the columns
(/repo/ddl/introspection_scripts/mysql_constraints.sql:18-56, 57-95). -/
def myKeys (type : Str) (f : Filter) (c : MyInfo) : List ((Str × Str × Str) × List Str) :=
  grouped (c.tc.flatMap fun t => c.kcu.flatMap fun u =>
    if myJoin t u && t.type == type && myTable f t then [((t.schema, t.table, t.name), u.pos, u.column)]
    else [])

/-- What a foreign key is grouped by: schema, table, name, referenced schema and table, rules
(/repo/ddl/introspection_scripts/mysql_constraints.sql:130-139). -/
structure MyForeign where
  schema : Str
  table : Str
  name : Str
  refSchema : Option Str
  refTable : Option Str
  /-- update rule, delete rule, match option; `none` without a row in referential_constraints -/
  rules : Option (Str × Str × Str)
  deriving DecidableEq

/-- `LEFT JOIN information_schema.referential_constraints USING (constraint_schema, constraint_name)`
(/repo/ddl/introspection_scripts/mysql_constraints.sql:114) -/
def myRules (c : MyInfo) (t : MyTc) : List (Option (Str × Str × Str)) :=
  match c.rc.filter (fun r => r.schema == t.schema && r.name == t.name) with
  | [] => [none]
  | rs => rs.map fun r => some (r.updateRule, r.deleteRule, r.matchOption)

/-- Foreign keys with their columns and the referenced columns
(/repo/ddl/introspection_scripts/mysql_constraints.sql:96-140). -/
def myForeign (f : Filter) (c : MyInfo) : List (MyForeign × List Str × List Str) :=
  (grouped (c.tc.flatMap fun t => c.kcu.flatMap fun u => (myRules c t).flatMap fun r =>
    if myJoin t u && t.type == b!"FOREIGN KEY" && myTable f t then
      [((⟨t.schema, t.table, t.name, u.refSchema, u.refTable, r⟩ : MyForeign), u.pos, u.column, u.refColumn)]
    else [])).map fun g => (g.1, g.2.map (·.1), g.2.filterMap (·.2))

/-- Checks: schema, table, name and expression; there is no condition on the type of the constraint
(/repo/ddl/introspection_scripts/mysql_constraints.sql:141-174). -/
def myChecks (f : Filter) (c : MyInfo) : List (Str × Str × Str × Str) :=
  c.tc.flatMap fun t => c.cc.flatMap fun k =>
    if t.schema == k.schema && t.name == k.name && myTable f t then [(t.schema, t.table, t.name, k.clause)]
    else []

/-! ## SQLite -/

/-- a row of pragma_foreign_key_list (/repo/ddl/introspection_scripts/sqlite_constraints.sql:105-113) -/
structure LiteFkRow where
  id : Nat
  seq : Nat
  table : Str
  «from» : Str
  to : Option Str
  onUpdate : Str
  onDelete : Str

/-- sqlite_schema and the pragmas: the columns of a table with their place in the primary key, its
indexes (name, unique, origin), the columns of an index with their numbers, its foreign keys
(/repo/ddl/introspection_scripts/sqlite_constraints.sql:25-41, 82-83, 129) -/
structure LiteInfo where
  rows : List LiteRow
  info : Str → List (Str × Nat)
  indexes : Str → List (Str × Bool × Char)
  columns : Str → List (Nat × Str)
  fkeys : Str → List LiteFkRow

/-- the tables whose constraints are read
(/repo/ddl/introspection_scripts/sqlite_constraints.sql:25-40, 66-81, 113-128) -/
def liteNamed (f : Filter) (rows : List LiteRow) : List Str :=
  (rows.filter fun m =>
    m.type == b!"table" &&
    (f.system || (!like Go.lowerC b!"sqlite_%" m.tblName && !like Go.lowerC b!"CREATE TABLE '%" m.sql)) &&
    passes f.tables f.excludeTables m.tblName).map (·.tblName)

/-- primary keys (/repo/ddl/introspection_scripts/sqlite_constraints.sql:11-50) -/
def litePrimary (f : Filter) (c : LiteInfo) : List (Str × List Str) :=
  grouped ((liteNamed f c.rows).flatMap fun t => (c.info t).flatMap fun x =>
    if x.2 > 0 then [(t, x.2, x.1)] else [])

/-- unique constraints: table, name of the index and columns; the name is not reported
(/repo/ddl/introspection_scripts/sqlite_constraints.sql:51-93) -/
def liteUnique (f : Filter) (c : LiteInfo) : List ((Str × Str) × List Str) :=
  grouped ((liteNamed f c.rows).flatMap fun t => (c.indexes t).flatMap fun i => (c.columns i.1).flatMap fun x =>
    if i.2.1 && i.2.2 == 'u' then [((t, i.1), x.1, x.2)] else [])

/-- What a foreign key is grouped by (/repo/ddl/introspection_scripts/sqlite_constraints.sql:133-138). -/
structure LiteForeign where
  table : Str
  id : Nat
  refTable : Str
  updateRule : Str
  deleteRule : Str
  deriving DecidableEq

/-- foreign keys with their columns and the referenced columns
(/repo/ddl/introspection_scripts/sqlite_constraints.sql:94-139) -/
def liteForeign (f : Filter) (c : LiteInfo) : List (LiteForeign × List Str × List Str) :=
  (grouped ((liteNamed f c.rows).flatMap fun t => (c.fkeys t).map fun r =>
    ((⟨t, r.id, r.table, r.onUpdate, r.onDelete⟩ : LiteForeign), r.seq, r.from, r.to))).map
      fun g => (g.1, g.2.map (·.1), g.2.filterMap (·.2))

/-! ## Postgres -/

/-- a row of pg_attribute (/repo/ddl/introspection_scripts/postgres_constraints.sql:57) -/
structure PgAttribute where
  attrelid : Nat
  attnum : Int
  attname : Str

/-- a row of pg_constraint (/repo/ddl/introspection_scripts/postgres_constraints.sql:45-57, 162-203) -/
structure PgKey where
  conname : Str
  conrelid : Nat
  contype : Char
  conkey : List Int
  confrelid : Nat
  confkey : List Int
  confupdtype : Char
  confdeltype : Char
  confmatchtype : Char
  condeferrable : Bool
  condeferred : Bool
  convalidated : Bool

/-- the catalog tables that postgres_constraints.sql reads
(/repo/ddl/introspection_scripts/postgres_constraints.sql:53-57) -/
structure PgInfo where
  namespaces : List PgNamespace
  classes : List PgClass
  attributes : List PgAttribute
  keys : List PgKey

/-- `CROSS JOIN unnest(array) WITH ORDINALITY`
(/repo/ddl/introspection_scripts/postgres_constraints.sql:56) -/
def unnest (l : List Int) : List (Int × Nat) := l.zipIdx 1

/-- Primary keys and unique constraints: schema, table, name, deferrable, initially deferred, with the
columns (/repo/ddl/introspection_scripts/postgres_constraints.sql:22-80, 81-139). -/
def pgKeys (type : Char) (f : Filter) (c : PgInfo) : List ((Str × Str × Str × Bool × Bool) × List Str) :=
  grouped (c.keys.flatMap fun k => c.classes.flatMap fun t => c.namespaces.flatMap fun n =>
    (unnest k.conkey).flatMap fun x => c.attributes.flatMap fun a =>
      if t.oid == k.conrelid && n.oid == t.relnamespace && a.attrelid == k.conrelid && a.attnum == x.1 &&
          k.contype == type && pgShown f n.nspname && passes f.tables f.excludeTables t.relname then
        [((n.nspname, t.relname, k.conname, k.condeferrable, k.condeferred), x.2, a.attname)]
      else [])

/-- `CASE pg_constraint.confupdtype`; other letters give NULL
(/repo/ddl/introspection_scripts/postgres_constraints.sql:170-183) -/
def pgRule (c : Char) : Option Str :=
  if c = 'a' then some b!"NO ACTION" else if c = 'r' then some b!"RESTRICT" else if c = 'c' then some b!"CASCADE"
  else if c = 'n' then some b!"SET NULL" else if c = 'd' then some b!"SET DEFAULT" else none

/-- `CASE pg_constraint.confmatchtype`
(/repo/ddl/introspection_scripts/postgres_constraints.sql:184-188) -/
def pgMatch (c : Char) : Str :=
  if c = 'f' then b!"MATCH FULL" else if c = 'p' then b!"MATCH PARTIAL" else []

/-- What a foreign key is grouped by
(/repo/ddl/introspection_scripts/postgres_constraints.sql:219-230). -/
structure PgForeign where
  schema : Str
  table : Str
  name : Str
  refSchema : Str
  refTable : Str
  updateRule : Option Str
  deleteRule : Option Str
  matchOption : Str
  deferrable : Bool
  deferred : Bool
  notValid : Bool
  deriving DecidableEq

/-- Foreign keys with their columns and the referenced columns
(/repo/ddl/introspection_scripts/postgres_constraints.sql:140-231). -/
def pgForeign (f : Filter) (c : PgInfo) : List (PgForeign × List Str × List Str) :=
  (grouped (c.keys.flatMap fun k => c.classes.flatMap fun t1 => c.classes.flatMap fun t2 =>
    c.namespaces.flatMap fun n1 => c.namespaces.flatMap fun n2 =>
    (unnest k.conkey).flatMap fun x1 => (unnest k.confkey).flatMap fun x2 =>
    c.attributes.flatMap fun a1 => c.attributes.flatMap fun a2 =>
      if t1.oid == k.conrelid && t2.oid == k.confrelid && n1.oid == t1.relnamespace &&
          n2.oid == t2.relnamespace && x2.2 == x1.2 && a1.attrelid == k.conrelid && a1.attnum == x1.1 &&
          a2.attrelid == k.confrelid && a2.attnum == x2.1 && k.contype == 'f' && pgShown f n1.nspname &&
          passes f.tables f.excludeTables t1.relname then
        [((⟨n1.nspname, t1.relname, k.conname, n2.nspname, t2.relname, pgRule k.confupdtype,
          pgRule k.confdeltype, pgMatch k.confmatchtype, k.condeferrable, k.condeferred,
          !k.convalidated⟩ : PgForeign), x1.2, a1.attname, a2.attname)]
      else [])).map fun g => (g.1, g.2.map (·.1), g.2.map (·.2))

end Sqddl.Scripts
