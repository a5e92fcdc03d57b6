import Verif.Model.ScriptColumns

/-!
# Model of the introspection scripts: enums, domains, views and triggers

The queries in /repo/ddl/introspection_scripts/postgres_enums.sql, postgres_domains.sql,
postgres_views.sql, postgres_triggers.sql, mysql_views.sql and sqlserver_triggers.sql.  The order of the objects is left out.  Lists are given as lists: how they are
written and read is in Model/IntrospectRows.
-/

namespace Sqddl.Scripts

/-- the other lists of the filter (/repo/ddl/database_introspector.go:1587-1613) -/
structure ObjFilter extends Filter where
  views : List Str := []
  excludeViews : List Str := []
  enums : List Str := []
  excludeEnums : List Str := []
  domains : List Str := []
  excludeDomains : List Str := []

/-- a row of pg_type (/repo/ddl/introspection_scripts/postgres_domains.sql:2-14) -/
structure PgTypeRow where
  oid : Nat
  typnamespace : Nat
  typname : Str
  typtype : Char
  typbasetype : Nat
  typtypmod : Int
  typcollation : Nat
  typnotnull : Bool
  typdefault : Option Str
  deriving DecidableEq

/-- a row of pg_enum; of the sort order only the order matters, it is given as a number
(/repo/ddl/introspection_scripts/postgres_enums.sql:4-8) -/
structure PgEnumRow where
  enumtypid : Nat
  order : Nat
  label : Str
  deriving DecidableEq

/-- a row of pg_constraint for a domain; since Postgres 17 NOT NULL of a domain is one too, which is not
modelled (/repo/ddl/introspection_scripts/postgres_domains.sql:8-9, 16) -/
structure PgTypeCheck where
  oid : Nat
  conname : Str
  contypid : Nat
  deriving DecidableEq

/-- a row of pg_trigger (/repo/ddl/introspection_scripts/postgres_triggers.sql:4-14) -/
structure PgTriggerRow where
  oid : Nat
  tgrelid : Nat
  tgname : Str
  tgisinternal : Bool
  deriving DecidableEq

/-- what the scripts use (/repo/ddl/introspection_scripts/postgres_enums.sql:6-9,
postgres_domains.sql:11-16, postgres_views.sql:10-26, postgres_triggers.sql:8-12) -/
structure PgObjects where
  namespaces : List PgNamespace
  classes : List PgClass
  types : List PgTypeRow
  enums : List PgEnumRow
  checks : List PgTypeCheck
  collations : List PgNamed
  cols : List PgCol
  triggers : List PgTriggerRow
  descriptions : List PgDescription
  /-- the numbers of the tables of the catalog pg_catalog -/
  catalogs : Str → Option Nat
  /-- `current_database()` -/
  database : Str
  /-- `format_type(type, modifier)` -/
  formatType : Nat → Int → Str
  /-- `pg_get_constraintdef(constraint, true)` -/
  checkdef : Nat → Str
  /-- `pg_get_viewdef(view, true)` -/
  viewdef : Nat → Str
  /-- `pg_get_triggerdef(trigger, true)` -/
  triggerdef : Nat → Str
  /-- what `to_regclass` makes of a text that is not two plain identifiers with a dot -/
  odd : Str → Option Nat

/-- `COALESCE(obj_description(object, catalog), '')`: the comment of the object in that catalog table
(/repo/ddl/introspection_scripts/postgres_enums.sql:5, postgres_domains.sql:10, postgres_views.sql:9) -/
def objDescription (c : PgObjects) (oid : Nat) (catalog : Str) : Str :=
  ((c.descriptions.find? fun d => d.objoid == oid && c.catalogs catalog == some d.classoid && d.objsubid == 0).map
    (·.description)).getD []

/-- The enums; `none`: the query is refused, because with a list of names it mentions pg_typ, which is
no table of it (/repo/ddl/introspection_scripts/postgres_enums.sql). -/
def pgEnums (f : ObjFilter) (c : PgObjects) : Option (List Enum) :=
  if f.enums ≠ [] ∨ f.excludeEnums ≠ [] then none
  else some ((grouped (c.enums.flatMap fun e => c.types.flatMap fun t => c.namespaces.flatMap fun n =>
    if t.oid == e.enumtypid && n.oid == t.typnamespace && pgShown f.toFilter n.nspname then
      [((n.nspname, t.typname, t.oid), e.order, e.label)]
    else [])).map fun g =>
      { enumSchema := g.1.1, enumName := g.1.2.1, enumLabels := g.2, comment := objDescription c g.1.2.2 c.database })

/-- the row of a domain without its checks (/repo/ddl/introspection_scripts/postgres_domains.sql:2-7, 10) -/
def pgDomainRow (c : PgObjects) (n : PgNamespace) (t : PgTypeRow) (k : Option PgNamed) : Domain :=
  { domainSchema := n.nspname
    domainName := t.typname
    underlyingType := c.formatType t.typbasetype t.typtypmod
    collationName := (k.map (·.name)).getD []
    isNotNull := t.typnotnull
    columnDefault := t.typdefault.getD []
    comment := objDescription c t.oid c.database }

/-- The domains; `none`: the query is refused, because with a list of names an AND is missing. The join
with pg_namespace is given as an inner join: every type has a schema. The rows of a domain have one key,
so that grouping is done for each domain (/repo/ddl/introspection_scripts/postgres_domains.sql). -/
def pgDomains (f : ObjFilter) (c : PgObjects) : Option (List Domain) :=
  if f.domains ≠ [] ∨ f.excludeDomains ≠ [] then none
  else some (c.types.flatMap fun t => c.namespaces.flatMap fun n =>
    if t.typtype == 'd' && n.oid == t.typnamespace && pgShown f.toFilter n.nspname then
      (leftJoin c.types fun b => b.oid == t.typbasetype).flatMap fun b =>
        (leftJoin c.collations fun k =>
          k.oid == t.typcollation && b.any fun b => t.typcollation != b.typcollation).map fun k =>
            let checks := (sortSeq ((leftJoin c.checks fun x => x.contypid == t.oid).map fun x =>
              ((x.map (·.oid)).getD 0, x))).map (·.2)
            { pgDomainRow c n t k with
              checkNames := checks.map fun x => (x.map (·.conname)).getD []
              checkExprs := checks.map fun x => (x.map fun x => c.checkdef x.oid).getD [] }
    else [])

/-- The triggers: every description of the number of the trigger gives a row
(/repo/ddl/introspection_scripts/postgres_triggers.sql). -/
def pgTriggers (f : ObjFilter) (c : PgObjects) : List Trigger :=
  c.triggers.flatMap fun g => c.classes.flatMap fun t => c.namespaces.flatMap fun n =>
    if t.oid == g.tgrelid && n.oid == t.relnamespace && !g.tgisinternal && pgShown f.toFilter n.nspname &&
        passes f.tables f.excludeTables t.relname then
      (leftJoin c.descriptions fun d => d.objoid == g.oid).map fun d =>
        { tableSchema := n.nspname, tableName := t.relname, triggerName := g.tgname, isViewTrigger := t.relkind == 'v'
          sql := c.triggerdef g.oid ++ b!";", comment := (d.map (·.description)).getD [] }
    else []

/-- a name that needs no quotes, apart from capitals: letters, digits, `_` and `$`, not a digit first
(what `to_regclass` reads, /repo/ddl/introspection_scripts/postgres_views.sql:5, 26) -/
def bareName : Str → Bool
  | [] => false
  | x :: s => (x.isAlpha || x == '_') && s.all fun y => y.isAlphanum || y == '_' || y == '$'

/-- `to_regclass(schema || '.' || name)`: capitals become small letters
(/repo/ddl/introspection_scripts/postgres_views.sql:5, 26) -/
def toRegclass (c : PgObjects) (schema name : Str) : Option Nat :=
  if bareName schema && bareName name then
    (c.classes.find? fun t => t.relname == name.map Char.toLower &&
      c.namespaces.any fun n => n.oid == t.relnamespace && n.nspname == schema.map Char.toLower).map (·.oid)
  else c.odd (schema ++ b!"." ++ name)

/-- the columns of a view in their order (/repo/ddl/introspection_scripts/postgres_views.sql:12-25) -/
def pgViewCols (c : PgObjects) (oid : Nat) : List PgCol :=
  (sortSeq ((c.cols.filter fun a => a.attrelid == oid && decide (a.attnum > 0) && !a.attisdropped).map fun a =>
    (a.attnum.toNat, a))).map (·.2)

/-- the row of a view; the join with the enums is given as a condition, because the numbers of types are
unique (/repo/ddl/introspection_scripts/postgres_views.sql:2-9, 12-21) -/
def pgViewRow (c : PgObjects) (n : PgNamespace) (t : PgClass) (oid : Nat) : View :=
  { viewSchema := n.nspname
    viewName := t.relname
    isMaterialized := t.relkind == 'm'
    sql := c.viewdef oid
    columns := (pgViewCols c oid).map (·.attname)
    columnTypes := (pgViewCols c oid).map fun a => (c.formatType a.atttypid a.atttypmod).map Char.toUpper
    enumColumns := ((pgViewCols c oid).filter fun a =>
      c.types.any fun e => e.typtype == 'e' && e.oid == a.atttypid).map (·.attname)
    comment := objDescription c oid c.database }

/-- The views and materialized views; pg_views and pg_matviews have the classes of those kinds
(/repo/ddl/introspection_scripts/postgres_views.sql). -/
def pgViews (f : ObjFilter) (c : PgObjects) : List View :=
  c.classes.flatMap fun t => c.namespaces.flatMap fun n =>
    if (t.relkind == 'v' || t.relkind == 'm') && n.oid == t.relnamespace && pgShown f.toFilter n.nspname &&
        passes f.views f.excludeViews t.relname then
      match toRegclass c n.nspname t.relname with
      | none => []
      | some oid => if pgViewCols c oid = [] then [] else [pgViewRow c n t oid]
    else []

/-! ## MySQL -/

/-- a row of information_schema.views: schema, name and definition
(/repo/ddl/introspection_scripts/mysql_views.sql:2-8) -/
structure MyViewRow where
  schema : Str
  name : Str
  definition : Str

/-- The views: the columns of all tables are grouped and joined by name
(/repo/ddl/introspection_scripts/mysql_views.sql). -/
def myViews (f : ObjFilter) (views : List MyViewRow) (cols : List MyCol) : List View :=
  views.flatMap fun v =>
    (grouped (cols.map fun r => ((r.schema, r.table), r.ordinal, r))).flatMap fun g =>
      if g.1 == (v.schema, v.name) && myShown f.toFilter v.schema && passes f.views f.excludeViews v.name then
        [{ viewSchema := v.schema, viewName := v.name, sql := v.definition
           columns := g.2.map (·.name), columnTypes := g.2.map (·.type) }]
      else []

/-! ## SQL Server -/

/-- a row of sys.objects, its type without trailing blanks, with its row of sys.sql_modules if it has one;
the definition of an encrypted module is NULL, `some none`
(/repo/ddl/introspection_scripts/sqlserver_triggers.sql:2-11) -/
structure MsTrigObject where
  id : Nat
  schema : Str
  name : Str
  type : Str
  parent : Nat
  module : Option (Option Str)

/-- the conditions on the table of a trigger (/repo/ddl/introspection_scripts/sqlserver_triggers.sql:14-31) -/
def msTriggerShown (fold : Char → Char) (f : ObjFilter) (t : MsTrigObject) : Bool :=
  (f.system || (!like fold b!"spt_%" t.name && !like fold b!"msreplication_%" t.name)) &&
  passes f.schemas f.excludeSchemas t.schema && passes f.tables f.excludeTables t.name &&
  passes f.views f.excludeViews t.name

/-- a row (/repo/ddl/introspection_scripts/sqlserver_triggers.sql:2-6) -/
def msTriggerRow (t g : MsTrigObject) (definition : Str) : Trigger :=
  { tableSchema := t.schema
    tableName := t.name
    triggerName := g.name
    isViewTrigger := t.type == b!"V"
    sql := definition }

/-- The rows of the triggers; `none`: a row whose definition is NULL, which cannot be read as a text
(/repo/ddl/introspection_scripts/sqlserver_triggers.sql). -/
def msTriggerRows (fold : Char → Char) (f : ObjFilter) (objects : List MsTrigObject) : List (Option Trigger) :=
  objects.flatMap fun g => objects.flatMap fun t =>
    if t.id == g.parent && g.type == b!"TR" && msTriggerShown fold f t then
      g.module.toList.map fun d => d.map (msTriggerRow t g)
    else []

/-- The triggers; `none`: an error, because a row cannot be read
(/repo/ddl/database_introspector.go:1354-1364). -/
def msTriggers (fold : Char → Char) (f : ObjFilter) (objects : List MsTrigObject) : Option (List Trigger) :=
  if (msTriggerRows fold f objects).any Option.isNone then none
  else some ((msTriggerRows fold f objects).filterMap id)

end Sqddl.Scripts
