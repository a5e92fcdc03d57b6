import Verif.Model.ScriptKeys

/-!
# Model of the introspection scripts: indexes, and the constraints of SQL Server

The queries in /repo/ddl/introspection_scripts/mysql_indexes.sql, sqlite_indexes.sql,
sqlserver_indexes.sql and sqlserver_constraints.sql with the lists that `GetIndexes` makes of them.
Simplified as in `Model/ScriptKeys`; the indexes of SQL Server are those of tables, not of views, and
rows with the same `key_ordinal` come in the same order in all three lists.
-/

namespace Sqddl.Scripts

/-! ## MySQL -/

/-- a row of information_schema.statistics; `descending`: the collation is D
(/repo/ddl/introspection_scripts/mysql_indexes.sql:11-24) -/
structure MyStat where
  schema : Str
  table : Str
  name : Str
  type : Str
  nonUnique : Bool
  seq : Nat
  column : Option Str
  expression : Option Str
  descending : Bool

/-- statistics, and table_constraints (schema, table, name)
(/repo/ddl/introspection_scripts/mysql_indexes.sql:24-30) -/
structure MyStats where
  stats : List MyStat
  constraints : List (Str × Str × Str)

/-- What an index is grouped by (/repo/ddl/introspection_scripts/mysql_indexes.sql:46-51). -/
structure MyIndexKey where
  schema : Str
  table : Str
  name : Str
  type : Str
  unique : Bool
  deriving DecidableEq

/-- `COALESCE(column_name, CONCAT('(', expression, ')'))`; `old`: MariaDB or a version lower than 8
(/repo/ddl/introspection_scripts/mysql_indexes.sql:16-20) -/
def myPart (old : Bool) (s : MyStat) : Option Str :=
  match s.column with
  | some c => some c
  | none => if old then none else s.expression.map fun e => b!"(" ++ e ++ b!")"

/-- /repo/ddl/introspection_scripts/mysql_indexes.sql: the indexes with their columns and directions;
`group_concat` leaves out NULL. -/
def myIndexCols (old : Bool) (f : Filter) (c : MyStats) : List (MyIndexKey × List Str × List Bool) :=
  (grouped (c.stats.flatMap fun s =>
    if !c.constraints.any (fun k => k.2.2 == s.name) && myShown f s.schema &&
        passes f.tables f.excludeTables s.table then
      [((⟨s.schema, s.table, s.name, s.type, !s.nonUnique⟩ : MyIndexKey), s.seq, myPart old s, s.descending)]
    else [])).map fun g => (g.1, g.2.filterMap (·.1), g.2.map (·.2))

/-! ## SQLite -/

/-- a row of sqlite_schema for an index (/repo/ddl/introspection_scripts/sqlite_indexes.sql:18, 37) -/
structure LiteIndexRow where
  name : Str
  tblName : Str
  sql : Str

/-- sqlite_schema, pragma_index_list (name, unique, origin) and pragma_index_info (seqno, cid, name)
(/repo/ddl/introspection_scripts/sqlite_indexes.sql:19-37) -/
structure LiteIndexInfo where
  rows : List LiteRow
  indexRows : List LiteIndexRow
  indexes : Str → List (Str × Bool × Char)
  columns : Str → List (Nat × Int × Option Str)

/-- What an index is grouped by (/repo/ddl/introspection_scripts/sqlite_indexes.sql:44-48). -/
structure LiteIndexKey where
  table : Str
  name : Str
  unique : Bool
  sql : Str
  deriving DecidableEq

/-- `CASE columns.cid WHEN -1 THEN '' WHEN -2 THEN '' ELSE columns.name END`
(/repo/ddl/introspection_scripts/sqlite_indexes.sql:12-16) -/
def litePart (cid : Int) (name : Option Str) : Str :=
  if cid = -1 then [] else if cid = -2 then [] else name.getD []

/-- /repo/ddl/introspection_scripts/sqlite_indexes.sql: the indexes with their columns. -/
def liteIndexCols (f : Filter) (c : LiteIndexInfo) : List (LiteIndexKey × List Str) :=
  grouped ((liteNamed f c.rows).flatMap fun t => (c.indexes t).flatMap fun i => c.indexRows.flatMap fun m =>
    (c.columns i.1).flatMap fun x =>
      if m.tblName == t && m.name == i.1 && i.2.2 == 'c' then
        [((⟨t, i.1, i.2.1, m.sql⟩ : LiteIndexKey), x.1, litePart x.2.1 x.2.2)]
      else [])

/-! ## SQL Server -/

/-- a row of sys.tables with the name of its schema
(/repo/ddl/introspection_scripts/sqlserver_indexes.sql:27-28) -/
structure MsTable where
  id : Nat
  schema : Str
  name : Str

/-- a row of sys.columns (/repo/ddl/introspection_scripts/sqlserver_indexes.sql:32-34) -/
structure MsColumn where
  table : Nat
  id : Nat
  name : Str

/-- a row of sys.indexes (/repo/ddl/introspection_scripts/sqlserver_indexes.sql:16-26, 36-37) -/
structure MsIndex where
  table : Nat
  id : Nat
  name : Option Str
  type : Str
  unique : Bool
  primary : Bool
  uniqueConstraint : Bool
  filter : Option Str

/-- a row of sys.index_columns (/repo/ddl/introspection_scripts/sqlserver_indexes.sql:21-31) -/
structure MsIndexColumn where
  table : Nat
  index : Nat
  column : Nat
  ordinal : Nat
  descending : Bool
  included : Bool

/-- a row of sys.foreign_keys
(/repo/ddl/introspection_scripts/sqlserver_constraints.sql:131-142) -/
structure MsFk where
  id : Nat
  table : Nat
  name : Str
  updateRule : Str
  deleteRule : Str
  notTrusted : Bool

/-- a row of sys.foreign_key_columns
(/repo/ddl/introspection_scripts/sqlserver_constraints.sql:139, 144-151) -/
structure MsFkColumn where
  fk : Nat
  seq : Nat
  table : Nat
  column : Nat
  refTable : Nat
  refColumn : Nat

/-- a row of sys.check_constraints
(/repo/ddl/introspection_scripts/sqlserver_constraints.sql:184-197) -/
structure MsCheck where
  table : Nat
  name : Str
  definition : Str
  notTrusted : Bool

/-- the catalog views that the scripts read
(/repo/ddl/introspection_scripts/sqlserver_indexes.sql:25-34, sqlserver_constraints.sql:140-152,
195-198) -/
structure MsInfo where
  tables : List MsTable
  columns : List MsColumn
  indexes : List MsIndex
  indexColumns : List MsIndexColumn
  fks : List MsFk
  fkColumns : List MsFkColumn
  checks : List MsCheck

/-- the conditions on schemas and tables
(/repo/ddl/introspection_scripts/sqlserver_constraints.sql:45-57, sqlserver_indexes.sql:38-50) -/
def msShown (fold : Char → Char) (f : Filter) (t : MsTable) : Bool :=
  (f.system || (!like fold b!"spt_%" t.name && !like fold b!"msreplication_%" t.name)) &&
  passes f.schemas f.excludeSchemas t.schema && passes f.tables f.excludeTables t.name

/-- a column of an index: name, descending, included
(/repo/ddl/introspection_scripts/sqlserver_indexes.sql:20-22) -/
structure MsPart where
  name : Str
  descending : Bool
  included : Bool

/-- the joins of sys.indexes, sys.tables, sys.index_columns and sys.columns; `key` has the other
conditions and what the rows are grouped by
(/repo/ddl/introspection_scripts/sqlserver_indexes.sql:25-34, sqlserver_constraints.sql:33-42, 80-89) -/
def msJoined {K : Type} (c : MsInfo) (key : MsIndex → MsTable → Option K) : List (K × Nat × MsPart) :=
  c.indexes.flatMap fun i => c.indexColumns.flatMap fun x => c.tables.flatMap fun t =>
    c.columns.flatMap fun col =>
      if t.id == i.table && (x.index == i.id && x.table == i.table) &&
          (col.id == x.column && col.table == i.table) then
        (key i t).toList.map fun k => (k, x.ordinal, ⟨col.name, x.descending, x.included⟩)
      else []

/-- What an index is grouped by (/repo/ddl/introspection_scripts/sqlserver_indexes.sql:91-98). -/
structure MsIndexKey where
  schema : Str
  table : Str
  name : Str
  type : Str
  unique : Bool
  predicate : Str
  deriving DecidableEq

/-- /repo/ddl/introspection_scripts/sqlserver_indexes.sql:13-23, 35-50 -/
def msIndexKey (fold : Char → Char) (f : Filter) (i : MsIndex) (t : MsTable) : Option MsIndexKey :=
  match i.name with
  | none => none
  | some n =>
    if !i.primary && !i.uniqueConstraint && msShown fold f t then
      some ⟨t.schema, t.name, n, i.type, i.unique, i.filter.getD []⟩
    else none

/-- the lists that are made of the columns of an index: columns, included columns, directions
(/repo/ddl/database_introspector.go:1081-1108) -/
def msSplit (l : List MsPart) : List Str × List Str × List Bool :=
  ((l.filter (fun p => !p.included)).map (·.name), (l.filter (·.included)).map (·.name),
    (l.map (·.descending)).drop (l.filter (·.included)).length)

/-- /repo/ddl/introspection_scripts/sqlserver_indexes.sql, /repo/ddl/database_introspector.go:1060-1108:
the indexes of tables. -/
def msIndexes (fold : Char → Char) (f : Filter) (c : MsInfo) :
    List (MsIndexKey × List Str × List Str × List Bool) :=
  (grouped (msJoined c (msIndexKey fold f))).map fun g => (g.1, msSplit g.2)

/-- What a primary key or unique constraint is grouped by: schema, table, name and number of the index
(/repo/ddl/introspection_scripts/sqlserver_constraints.sql:44, 58-62, 91, 105-109). -/
def msKey (primary : Bool) (fold : Char → Char) (f : Filter) (i : MsIndex) (t : MsTable) :
    Option (Str × Str × Option Str × Nat) :=
  if (if primary then i.primary else i.uniqueConstraint) && msShown fold f t then
    some (t.schema, t.name, i.name, i.id)
  else none

/-- primary keys and unique constraints: schema, table, name, whether they are clustered, and the columns
(/repo/ddl/introspection_scripts/sqlserver_constraints.sql:17-110) -/
def msKeys (primary : Bool) (fold : Char → Char) (f : Filter) (c : MsInfo) :
    List ((Str × Str × Option Str × Bool) × List Str) :=
  (grouped (msJoined c (msKey primary fold f))).map fun g =>
    ((g.1.1, g.1.2.1, g.1.2.2.1, g.1.2.2.2 == 1), g.2.map (·.name))

/-- What a foreign key is grouped by
(/repo/ddl/introspection_scripts/sqlserver_constraints.sql:169-177). -/
structure MsForeign where
  schema : Str
  table : Str
  name : Str
  refSchema : Str
  refTable : Str
  updateRule : Str
  deleteRule : Str
  notValid : Bool
  deriving DecidableEq

/-- foreign keys with their columns and the referenced columns
(/repo/ddl/introspection_scripts/sqlserver_constraints.sql:111-178) -/
def msForeign (fold : Char → Char) (f : Filter) (c : MsInfo) : List (MsForeign × List Str × List Str) :=
  (grouped (c.fks.flatMap fun k => c.fkColumns.flatMap fun x => c.tables.flatMap fun t1 =>
    c.tables.flatMap fun t2 => c.columns.flatMap fun c1 => c.columns.flatMap fun c2 =>
      if t1.id == k.table && x.fk == k.id && (c1.id == x.column && c1.table == x.table) &&
          (c2.id == x.refColumn && c2.table == x.refTable) && t2.id == x.refTable && msShown fold f t1 then
        [((⟨t1.schema, t1.name, k.name, t2.schema, t2.name, k.updateRule, k.deleteRule, k.notTrusted⟩ :
          MsForeign), x.seq, c1.name, c2.name)]
      else [])).map fun g => (g.1, g.2.map (·.1), g.2.map (·.2))

/-- checks: schema, table, name, expression, not trusted
(/repo/ddl/introspection_scripts/sqlserver_constraints.sql:179-214) -/
def msChecks (fold : Char → Char) (f : Filter) (c : MsInfo) : List (Str × Str × Str × Str × Bool) :=
  c.checks.flatMap fun k => c.tables.flatMap fun t =>
    if t.id == k.table && msShown fold f t then [(t.schema, t.name, k.name, k.definition, k.notTrusted)] else []

end Sqddl.Scripts
