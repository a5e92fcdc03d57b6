import Verif.Model.ScriptKeys

/-!
# The scripts for indexes, exclusion constraints and checks of Postgres

The functions of the database that write definitions (pg_get_indexdef, pg_get_expr,
pg_get_constraintdef) are oracles. Conditions that say nothing of the inner rows of a join are checked
before them. The JSON arrays are given decoded: an entry that is NULL becomes an empty text.
-/

namespace Sqddl.Scripts

/-- a row of pg_index (/repo/ddl/introspection_scripts/postgres_indexes.sql:20-26, 29) -/
structure PgIndexRow where
  indexrelid : Nat
  indrelid : Nat
  indisunique : Bool
  indnkeyatts : Nat
  indkey : List Int
  indclass : List Nat
  indpred : Option Str
  deriving DecidableEq

/-- a row of pg_class with its access method
(/repo/ddl/introspection_scripts/postgres_indexes.sql:30-33) -/
structure PgRel where
  oid : Nat
  relnamespace : Nat
  relname : Str
  relkind : Char
  relam : Nat
  deriving DecidableEq

/-- a row of pg_am, pg_opclass or pg_operator: a number and a name
(/repo/ddl/introspection_scripts/postgres_indexes.sql:33, 36, postgres_constraints.sql:317) -/
structure PgNamed where
  oid : Nat
  name : Str
  deriving DecidableEq

/-- a row of pg_constraint: its index and the operators of an exclusion constraint; `made` says that
the index was made for it
(/repo/ddl/introspection_scripts/postgres_indexes.sql:42-43, postgres_constraints.sql:295-317) -/
structure PgCon where
  oid : Nat
  conname : Str
  conrelid : Nat
  conindid : Nat
  contype : Char
  conexclop : List Nat
  condeferrable : Bool
  condeferred : Bool
  convalidated : Bool
  made : Option Nat
  deriving DecidableEq

/-- the catalog tables and functions that the scripts use
(/repo/ddl/introspection_scripts/postgres_indexes.sql:11-43) -/
structure PgCatalog where
  namespaces : List PgNamespace
  rels : List PgRel
  ams : List PgNamed
  opclasses : List PgNamed
  operators : List PgNamed
  attributes : List PgAttribute
  indexes : List PgIndexRow
  cons : List PgCon
  /-- `pg_get_indexdef(index, column, TRUE)`; column 0 is the whole statement -/
  indexdef : Nat → Nat → Str
  /-- `pg_get_expr(tree, table, TRUE)` -/
  expr : Str → Nat → Str
  /-- `pg_get_constraintdef(constraint, TRUE)` -/
  constraintdef : Nat → Str

/-- `LEFT JOIN` (/repo/ddl/introspection_scripts/postgres_indexes.sql:35-37) -/
def leftJoin {A : Type} (l : List A) (p : A → Bool) : List (Option A) :=
  if l.filter p = [] then [none] else (l.filter p).map some

/-- What an index is grouped by
(/repo/ddl/introspection_scripts/postgres_indexes.sql:59-69). -/
structure PgIndexKey where
  schema : Str
  table : Str
  name : Str
  type : Str
  isView : Bool
  unique : Bool
  numKeys : Nat
  index : Nat
  rel : Nat
  pred : Option Str
  deriving DecidableEq

/-- an index as it is reported (/repo/ddl/database_introspector.go:1019-1043) -/
structure PgIndexOut where
  schema : Str
  table : Str
  name : Str
  type : Str
  isView : Bool
  unique : Bool
  columns : List Str
  included : List Str
  opclasses : List Str
  pred : Str
  sql : Str
  deriving DecidableEq

/-- the condition on the rows of pg_index, pg_class twice, pg_namespace and pg_am
(/repo/ddl/introspection_scripts/postgres_indexes.sql:30-33, 38-57) -/
def pgIndexCond (f : Filter) (c : PgCatalog) (x : PgIndexRow) (i t : PgRel) (n : PgNamespace) (a : PgNamed) : Bool :=
  i.oid == x.indexrelid && t.oid == x.indrelid && n.oid == t.relnamespace && a.oid == i.relam &&
    !c.cons.any (fun k => k.conname == i.relname) && pgShown f n.nspname &&
    passes f.tables f.excludeTables t.relname

/-- what the row of an index is grouped by (/repo/ddl/introspection_scripts/postgres_indexes.sql:15-26) -/
def pgIndexKey (x : PgIndexRow) (i t : PgRel) (n : PgNamespace) (a : PgNamed) : PgIndexKey :=
  ⟨n.nspname, t.relname, i.relname, a.name, t.relkind == 'm', x.indisunique, x.indnkeyatts, x.indexrelid,
    x.indrelid, x.indpred⟩

/-- the columns of an index with their numbers, their definitions and operator classes
(/repo/ddl/introspection_scripts/postgres_indexes.sql:22-23, 27, 34-37) -/
def pgIndexParts (c : PgCatalog) (x : PgIndexRow) (i : PgRel) : List (Nat × Str × Option Str) :=
  (x.indkey.zipIdx 1).flatMap fun k => (leftJoin (x.indclass.zipIdx 1) (fun o => o.2 == k.2)).flatMap fun o =>
    (leftJoin c.opclasses (fun p => o.any (fun o => p.oid == o.1))).flatMap fun p =>
      (leftJoin c.attributes (fun a => a.attrelid == x.indrelid && a.attnum == k.1)).map fun _ =>
        (k.2, c.indexdef i.oid k.2, p.map (·.name))

/-- One group: the first columns are key columns, the others are included. There is a panic if there
are not enough (/repo/ddl/introspection_scripts/postgres_indexes.sql:1-12,
/repo/ddl/database_introspector.go:1035-1043). -/
def pgIndexOut (c : PgCatalog) (g : PgIndexKey × List (Str × Option Str)) : Option PgIndexOut :=
  if g.1.numKeys ≤ g.2.length then
    some ⟨g.1.schema, g.1.table, g.1.name, g.1.type, g.1.isView, g.1.unique,
      (g.2.map (·.1)).take g.1.numKeys, (g.2.map (·.1)).drop g.1.numKeys, g.2.map (·.2.getD []),
      (g.1.pred.map (c.expr · g.1.rel)).getD [], c.indexdef g.1.index 0 ++ b!";"⟩
  else none

/-- The indexes; `none` stands for a panic
(/repo/ddl/introspection_scripts/postgres_indexes.sql:1-74, /repo/ddl/database_introspector.go:969-973, 1016-1043). -/
def pgIndexCols (f : Filter) (c : PgCatalog) : List (Option PgIndexOut) :=
  (grouped (c.indexes.flatMap fun x => c.rels.flatMap fun i => c.rels.flatMap fun t =>
    c.namespaces.flatMap fun n => c.ams.flatMap fun a =>
      if pgIndexCond f c x i t n a then (pgIndexParts c x i).map fun p => (pgIndexKey x i t n a, p) else [])).map
    (pgIndexOut c)

/-- What an exclusion constraint is grouped by
(/repo/ddl/introspection_scripts/postgres_constraints.sql:334-342). -/
structure PgExclusion where
  schema : Str
  table : Str
  name : Str
  type : Str
  deferrable : Bool
  deferred : Bool
  rel : Nat
  pred : Option Str
  deriving DecidableEq

/-- the condition on the rows of pg_constraint, pg_class twice, pg_namespace, pg_index and pg_am
(/repo/ddl/introspection_scripts/postgres_constraints.sql:309-313, 318-332) -/
def pgExclusionCond (f : Filter) (k : PgCon) (t i : PgRel) (n : PgNamespace) (x : PgIndexRow) (a : PgNamed) : Bool :=
  t.oid == k.conrelid && i.oid == k.conindid && n.oid == t.relnamespace && x.indexrelid == i.oid &&
    a.oid == i.relam && k.contype == 'x' && pgShown f n.nspname && passes f.tables f.excludeTables t.relname

/-- the columns of an exclusion constraint with their numbers and operators
(/repo/ddl/introspection_scripts/postgres_constraints.sql:299-300, 306, 314-317) -/
def pgExclusionParts (c : PgCatalog) (k : PgCon) (i : PgRel) (x : PgIndexRow) : List (Nat × Str × Str) :=
  (x.indkey.zipIdx 1).flatMap fun y => (k.conexclop.zipIdx 1).flatMap fun o =>
    if (o.2 == y.2) = true then
      (leftJoin c.attributes (fun a => a.attrelid == x.indrelid && a.attnum == y.1)).flatMap fun _ =>
        c.operators.flatMap fun p => if (p.oid == o.1) = true then [(y.2, c.indexdef i.oid y.2, p.name)] else []
    else []

/-- The exclusion constraints with their columns, operators and condition
(/repo/ddl/introspection_scripts/postgres_constraints.sql:273-343). -/
def pgExclusions (f : Filter) (c : PgCatalog) : List (PgExclusion × List Str × List Str × Str) :=
  (grouped (c.cons.flatMap fun k => c.rels.flatMap fun t => c.rels.flatMap fun i =>
    c.namespaces.flatMap fun n => c.indexes.flatMap fun x => c.ams.flatMap fun a =>
      if pgExclusionCond f k t i n x a then (pgExclusionParts c k i x).map fun p =>
        ((⟨n.nspname, t.relname, k.conname, a.name, k.condeferrable, k.condeferred, x.indrelid,
          x.indpred⟩ : PgExclusion), p) else [])).map
    fun g => (g.1, g.2.map (·.1), g.2.map (·.2), (g.1.pred.map (c.expr · g.1.rel)).getD [])

/-- The checks: schema, table, name, definition, deferrable, initially deferred, not valid
(/repo/ddl/introspection_scripts/postgres_constraints.sql:232-272). -/
def pgChecks (f : Filter) (c : PgCatalog) : List (Str × Str × Str × Str × Bool × Bool × Bool) :=
  c.cons.flatMap fun k => c.rels.flatMap fun t => c.namespaces.flatMap fun n =>
    if t.oid == k.conrelid && n.oid == t.relnamespace && k.contype == 'c' && pgShown f n.nspname &&
        passes f.tables f.excludeTables t.relname then
      [(n.nspname, t.relname, k.conname, c.constraintdef k.oid, k.condeferrable, k.condeferred, !k.convalidated)]
    else []

end Sqddl.Scripts
