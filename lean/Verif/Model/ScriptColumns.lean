import Verif.Model.ScriptIndexesPostgres
import Verif.Model.ScriptIndexes
import Verif.Model.BatchInsert
import Verif.Model.Catalog

/-!
# Model of the introspection scripts: columns

The queries in /repo/ddl/introspection_scripts/postgres_columns.sql, mysql_columns.sql and
sqlserver_columns.sql.  A row is given as the `Column` that is scanned.  `ORDER BY` schema, table and
number puts the rows of a table together in the order of their numbers: they are given as groups; the
order of the tables is left out.  Functions of the databases that format types and expressions are
oracles.
-/

namespace Sqddl.Scripts

/-! ## Postgres -/

/-- a row of pg_attribute (/repo/ddl/introspection_scripts/postgres_columns.sql:4-43) -/
structure PgCol where
  attrelid : Nat
  attnum : Int
  attname : Str
  atttypid : Nat
  atttypmod : Int
  attidentity : Char
  attgenerated : Char
  attnotnull : Bool
  attisdropped : Bool
  attcollation : Nat
  deriving DecidableEq

/-- a row of pg_type (/repo/ddl/introspection_scripts/postgres_columns.sql:48-50) -/
structure PgType where
  oid : Nat
  typname : Str
  typtype : Char
  typbasetype : Nat
  typtypmod : Int
  deriving DecidableEq

/-- a row of pg_attrdef (/repo/ddl/introspection_scripts/postgres_columns.sql:46) -/
structure PgAttrdef where
  adrelid : Nat
  adnum : Int
  adbin : Str
  deriving DecidableEq

/-- what the script for columns uses (/repo/ddl/introspection_scripts/postgres_columns.sql:42-50) -/
structure PgColInfo where
  namespaces : List PgNamespace
  classes : List PgClass
  cols : List PgCol
  types : List PgType
  attrdefs : List PgAttrdef
  collations : List PgNamed
  /-- `format_type(type, modifier)` -/
  formatType : Nat → Int → Str
  /-- `pg_get_expr(tree, table, TRUE)` -/
  expr : Str → Nat → Str
  /-- `col_description(table, number)` -/
  description : Nat → Int → Option Str

/-- `(((typmod - 4) >> 16) & 65535)::TEXT` for the type numeric, which has the number 1700
(/repo/ddl/introspection_scripts/postgres_columns.sql:12-16) -/
def pgPrecision (type : Nat) (typmod : Int) : Str :=
  if type = 1700 then (if typmod = -1 then b!"0" else itoa (((typmod - 4) / 65536) % 65536).toNat) else []

/-- `((typmod - 4) & 65535)::TEXT` (/repo/ddl/introspection_scripts/postgres_columns.sql:17-21) -/
def pgScale (type : Nat) (typmod : Int) : Str :=
  if type = 1700 then (if typmod = -1 then b!"0" else itoa ((typmod - 4) % 65536).toNat) else []

/-- /repo/ddl/introspection_scripts/postgres_columns.sql:22-26 -/
def pgIdentity (c : Char) : Str :=
  if c = 'd' then b!"GENERATED BY DEFAULT AS IDENTITY" else if c = 'a' then b!"GENERATED ALWAYS AS IDENTITY" else []

/-- one row, of the joined rows (/repo/ddl/introspection_scripts/postgres_columns.sql:2-41) -/
def pgColumnRow (c : PgColInfo) (n : PgNamespace) (t : PgClass) (a : PgCol) (d : Option PgAttrdef)
    (col : Option PgNamed) (e dom base : Option PgType) : Column :=
  { tableSchema := n.nspname
    tableName := t.relname
    columnName := a.attname
    columnType := match base with
      | some b => c.formatType b.oid b.typtypmod
      | none => c.formatType a.atttypid a.atttypmod
    isEnum := e.isSome
    domainName := (dom.map (·.typname)).getD []
    numericPrecision := pgPrecision a.atttypid a.atttypmod
    numericScale := pgScale a.atttypid a.atttypmod
    columnIdentity := pgIdentity a.attidentity
    isNotNull := a.attnotnull
    generatedExpr := if a.attgenerated = 's' then (d.map fun d => c.expr d.adbin d.adrelid).getD [] else []
    generatedExprStored := a.attgenerated == 's'
    collationName := match col with
      | some k => if k.name = b!"default" then [] else k.name
      | none => []
    columnDefault := if a.attgenerated = 's' then [] else (d.map fun d => c.expr d.adbin d.adrelid).getD []
    comment := (c.description a.attrelid a.attnum).getD [] }

/-- the left joins (/repo/ddl/introspection_scripts/postgres_columns.sql:46-50) -/
def pgColumnRows (c : PgColInfo) (n : PgNamespace) (t : PgClass) (a : PgCol) : List Column :=
  (leftJoin c.attrdefs (fun d => d.adrelid == t.oid && d.adnum == a.attnum)).flatMap fun d =>
    (leftJoin c.collations (fun k => k.oid == a.attcollation)).flatMap fun col =>
      (leftJoin c.types (fun e => e.typtype == 'e' && e.oid == a.atttypid)).flatMap fun e =>
        (leftJoin c.types (fun x => x.oid == a.atttypid && x.typtype == 'd')).flatMap fun dom =>
          (leftJoin c.types (fun b => dom.any (fun x => b.oid == x.typbasetype))).map fun base =>
            pgColumnRow c n t a d col e dom base

/-- The columns of each table, with schema and table
(/repo/ddl/introspection_scripts/postgres_columns.sql:42-71). -/
def pgColumns (f : Filter) (c : PgColInfo) : List ((Str × Str) × List Column) :=
  grouped (c.cols.flatMap fun a => c.classes.flatMap fun t => c.namespaces.flatMap fun n =>
    if t.relkind == 'r' && t.oid == a.attrelid && n.oid == t.relnamespace && decide (a.attnum > 0) && !a.attisdropped &&
        pgShown f n.nspname && passes f.tables f.excludeTables t.relname then
      (pgColumnRows c n t a).map fun r => ((n.nspname, t.relname), a.attnum.toNat, r)
    else [])

/-! ## MySQL -/

/-- a row of information_schema.columns (/repo/ddl/introspection_scripts/mysql_columns.sql:2-21) -/
structure MyCol where
  schema : Str
  table : Str
  name : Str
  ordinal : Nat
  type : Str
  length : Option Str
  precision : Option Str
  scale : Option Str
  extra : Option Str
  nullable : Str
  generation : Option Str
  collation : Option Str
  default : Option Str
  comment : Str
  deriving DecidableEq

/-- one row; `db` is `@@collation_database` (/repo/ddl/introspection_scripts/mysql_columns.sql:2-19) -/
def myColumnRow (db : Str) (r : MyCol) : Column :=
  { tableSchema := r.schema
    tableName := r.table
    columnName := r.name
    columnType := r.type
    characterLength := r.length.getD []
    numericPrecision := r.precision.getD []
    numericScale := r.scale.getD []
    isAutoincrement := r.extra == some b!"auto_increment"
    isNotNull := r.nullable == b!"NO"
    onUpdateCurrentTimestamp := r.extra == some b!"DEFAULT_GENERATED on update CURRENT_TIMESTAMP"
    generatedExpr := r.generation.getD []
    generatedExprStored := r.extra == some b!"STORED GENERATED"
    collationName := if r.collation = some db then [] else r.collation.getD []
    columnDefault := r.default.getD []
    comment := r.comment }

/-- The columns of each table; `tables` has schema, name and type of the rows of
information_schema.tables (/repo/ddl/introspection_scripts/mysql_columns.sql:20-42). -/
def myColumns (db : Str) (f : Filter) (tables : List (Str × Str × Str)) (cols : List MyCol) :
    List ((Str × Str) × List Column) :=
  grouped (cols.flatMap fun r => tables.flatMap fun t =>
    if t.1 == r.schema && t.2.1 == r.table && t.2.2 == b!"BASE TABLE" && myShown f r.schema &&
        passes f.tables f.excludeTables r.table then
      [((r.schema, r.table), r.ordinal, myColumnRow db r)]
    else [])

/-! ## SQL Server -/

/-- a row of sys.columns, with `COLUMNPROPERTY` of `charmaxlen` and `ordinal`, `ODBCSCALE` and
`OBJECT_DEFINITION` of its default (/repo/ddl/introspection_scripts/sqlserver_columns.sql:2-32, 57-60) -/
structure MsCol where
  table : Nat
  id : Nat
  name : Str
  ordinal : Nat
  systemType : Nat
  userType : Nat
  maxlen : Option Str
  precision : Nat
  odbcScale : Option Nat
  identity : Bool
  nullable : Bool
  collation : Option Str
  default : Option Str
  deriving DecidableEq

/-- what the script for columns uses: sys.types as `TYPE_NAME` reads it (user_type_id and name),
identity_columns (table, column, seed, increment), computed_columns (table, column, definition,
persisted) (/repo/ddl/introspection_scripts/sqlserver_columns.sql:31-41) -/
structure MsColInfo where
  tables : List MsTable
  cols : List MsCol
  types : List PgNamed
  identities : List (Nat × Nat × Str × Str)
  computed : List (Nat × Nat × Str × Bool)

/-- `TYPE_NAME(id)` (/repo/ddl/introspection_scripts/sqlserver_columns.sql:5) -/
def msTypeName (types : List PgNamed) (id : Nat) : Option Str := (types.find? (fun t => t.oid == id)).map (·.name)

/-- one row; `collation` is `SERVERPROPERTY('collation')`; an empty text becomes 0 where a number is
expected (/repo/ddl/introspection_scripts/sqlserver_columns.sql:2-30) -/
def msColumnRow (collation : Str) (c : MsColInfo) (t : MsTable) (a : MsCol) (i : Option (Nat × Nat × Str × Str))
    (g : Option (Nat × Nat × Str × Bool)) : Column :=
  { tableSchema := t.schema
    tableName := t.name
    columnName := a.name
    columnType := (msTypeName c.types a.systemType).getD t.name
    characterLength := a.maxlen.getD b!"0"
    numericPrecision :=
      if a.systemType ∈ [48, 52, 56, 59, 60, 62, 106, 108, 122, 127] then itoa a.precision else b!"0"
    numericScale :=
      if a.systemType ∈ [40, 41, 42, 43, 58, 61] then b!"0" else itoa (a.odbcScale.getD 0)
    columnIdentity :=
      if a.identity then
        match i with
        | some i => if i.2.2.1 = b!"1" ∧ i.2.2.2 = b!"1" then b!"IDENTITY"
          else b!"IDENTITY(" ++ i.2.2.1 ++ b!", " ++ i.2.2.2 ++ b!")"
        | none => b!"IDENTITY(, )"
      else []
    isNotNull := !a.nullable
    generatedExpr := (g.map (·.2.2.1)).getD []
    generatedExprStored := (g.map (·.2.2.2)).getD false
    collationName := if a.collation = some collation then [] else a.collation.getD []
    columnDefault := a.default.getD [] }

/-- The columns of each table (/repo/ddl/introspection_scripts/sqlserver_columns.sql:31-60). The join
with sys.types is left out: nothing of it is selected and it has one row for each number. -/
def msColumns (fold : Char → Char) (collation : Str) (f : Filter) (c : MsColInfo) : List ((Str × Str) × List Column) :=
  grouped (c.cols.flatMap fun a => c.tables.flatMap fun t =>
    if t.id == a.table && msShown fold f t then
      (leftJoin c.identities (fun i => i.1 == a.table && i.2.1 == a.id)).flatMap fun i =>
        (leftJoin c.computed (fun g => g.1 == a.table && g.2.1 == a.id)).map fun g =>
          ((t.schema, t.name), a.ordinal, msColumnRow collation c t a i g)
    else [])

end Sqddl.Scripts
