import Verif.Model.ScriptObjects
import Verif.Props.ScriptRows
import Verif.Spec.ScriptColumns

/-!
# Enums, domains, views and triggers as they were defined
-/

namespace Sqddl.Scripts.ObjectSpec
open OwnSpec

/-- What Postgres guarantees for its catalog. -/
structure PgObjValid (c : PgObjects) : Prop where
  schemaIds : (c.namespaces.map (·.oid)).Nodup
  schemaNames : (c.namespaces.map (·.nspname)).Nodup
  classIds : (c.classes.map (·.oid)).Nodup
  classNames : (c.classes.map (fun t => (t.relnamespace, t.relname))).Nodup
  typeIds : (c.types.map (·.oid)).Nodup
  typeNames : (c.types.map (fun t => (t.typnamespace, t.typname))).Nodup
  enumOrder : (c.enums.map (fun e => (e.enumtypid, e.order))).Nodup
  checkIds : (c.checks.map (·.oid)).Nodup
  collationIds : (c.collations.map (·.oid)).Nodup
  columnIds : (c.cols.map (fun a => (a.attrelid, a.attnum))).Nodup
  triggerIds : (c.triggers.map (·.oid)).Nodup
  triggerNames : (c.triggers.map (fun g => (g.tgrelid, g.tgname))).Nodup
  descriptions : (c.descriptions.map (fun d => (d.objoid, d.classoid, d.objsubid))).Nodup
  /-- a domain stands for a type -/
  bases : ∀ t ∈ c.types, t.typtype = 'd' → ∃ b ∈ c.types, b.oid = t.typbasetype

/-- the schema is asked for -/
def SchemaAsked (f : Filter) (n : PgNamespace) : Prop :=
  (f.system = true ∨ ¬ PgOwn n.nspname) ∧ Wanted f.schemas f.excludeSchemas n.nspname

/-- the comment of an object; `catalog` is the table of the catalog that the object is in -/
def CommentOf (c : PgObjects) (catalog : Str) (oid : Nat) (text : Str) : Prop :=
  (∃ d ∈ c.descriptions, d.objoid = oid ∧ some d.classoid = c.catalogs catalog ∧ d.objsubid = 0 ∧ text = d.description) ∨
  ((∀ d ∈ c.descriptions, d.objoid = oid → some d.classoid = c.catalogs catalog → d.objsubid ≠ 0) ∧ text = [])

/-- no object of the list has a comment -/
def NoComment (c : PgObjects) (oids : List Nat) : Prop := ∀ d ∈ c.descriptions, d.objoid ∉ oids

/-- the labels of an enum: all its labels, in the order in which they compare -/
def LabelsOf (c : PgObjects) (t : PgTypeRow) (labels : List Str) : Prop :=
  ∃ rows : List PgEnumRow, (∀ e, e ∈ rows ↔ e ∈ c.enums ∧ e.enumtypid = t.oid) ∧
    rows.Pairwise (fun a b => a.order < b.order) ∧ labels = rows.map (·.label)

/-- `x` is the enum `t` as it was defined. -/
structure EnumShown (c : PgObjects) (n : PgNamespace) (t : PgTypeRow) (x : Enum) : Prop where
  schema : x.enumSchema = n.nspname
  name : x.enumName = t.typname
  labels : LabelsOf c t x.enumLabels
  comment : CommentOf c b!"pg_type" t.oid x.comment

/-- `x` is the domain `t` as it was defined. -/
structure DomainShown (c : PgObjects) (n : PgNamespace) (t : PgTypeRow) (x : Domain) : Prop where
  schema : x.domainSchema = n.nspname
  name : x.domainName = t.typname
  type : x.underlyingType = c.formatType t.typbasetype t.typtypmod
  notNull : x.isNotNull = t.typnotnull
  default : x.columnDefault = t.typdefault.getD []
  /-- the collation, if it is not that of the type -/
  collation : ∀ b ∈ c.types, b.oid = t.typbasetype → ∀ k ∈ c.collations, k.oid = t.typcollation →
    x.collationName = (if t.typcollation = b.typcollation then [] else k.name)
  noCollation : (∀ k ∈ c.collations, k.oid ≠ t.typcollation) → x.collationName = []
  /-- all checks, in the order in which they were made -/
  checks : ∃ rows : List PgTypeCheck, (∀ k, k ∈ rows ↔ k ∈ c.checks ∧ k.contypid = t.oid) ∧
    rows.Pairwise (fun a b => a.oid < b.oid) ∧ x.checkNames = rows.map (·.conname) ∧
    x.checkExprs = rows.map fun k => c.checkdef k.oid
  comment : CommentOf c b!"pg_type" t.oid x.comment

/-- a column of a view -/
def ViewColumn (c : PgObjects) (t : PgClass) (a : PgCol) : Prop :=
  a ∈ c.cols ∧ a.attrelid = t.oid ∧ 0 < a.attnum ∧ a.attisdropped = false

/-- `x` is the view `t` as it was defined, with its columns in their order. -/
structure ViewShown (c : PgObjects) (n : PgNamespace) (t : PgClass) (x : View) : Prop where
  schema : x.viewSchema = n.nspname
  name : x.viewName = t.relname
  materialized : x.isMaterialized = true ↔ t.relkind = 'm'
  sql : x.sql = c.viewdef t.oid
  columns : ∃ cols : List PgCol, (∀ a, a ∈ cols ↔ ViewColumn c t a) ∧
    cols.Pairwise (fun a b => a.attnum < b.attnum) ∧ x.columns = cols.map (·.attname) ∧
    x.columnTypes = (cols.map fun a => (c.formatType a.atttypid a.atttypmod).map Char.toUpper) ∧
    ∀ s, s ∈ x.enumColumns ↔ ∃ a ∈ cols, a.attname = s ∧ ∃ e ∈ c.types, e.oid = a.atttypid ∧ e.typtype = 'e'
  comment : CommentOf c b!"pg_class" t.oid x.comment

/-- a name that is read back as it is without quotes -/
def PlainName (s : Str) : Prop :=
  (∃ x r, s = x :: r ∧ (x.isLower = true ∨ x = '_')) ∧ ∀ y ∈ s, y.isLower = true ∨ y.isDigit = true ∨ y = '_' ∨ y = '$'

/-- `x` is the trigger `g` as it was defined. -/
structure TriggerShown (c : PgObjects) (n : PgNamespace) (t : PgClass) (g : PgTriggerRow) (x : Trigger) : Prop where
  schema : x.tableSchema = n.nspname
  table : x.tableName = t.relname
  name : x.triggerName = g.tgname
  view : x.isViewTrigger = true ↔ t.relkind = 'v'
  sql : x.sql = c.triggerdef g.oid ++ b!";"
  comment : CommentOf c b!"pg_trigger" g.oid x.comment

/-! ## MySQL -/

/-- the rows of the views among the tables, with their definitions -/
def myViewRows (definition : ColumnSpec.MyTab → Str) (db : List ColumnSpec.MyTab) : List MyViewRow :=
  (db.filter fun t => t.type == b!"VIEW").map fun t => ⟨t.schema, t.name, definition t⟩

/-- the view is asked for -/
def MyViewAsked (f : ObjFilter) (t : ColumnSpec.MyTab) : Prop :=
  t.type = b!"VIEW" ∧ (f.system = true ∨ ¬ MyOwn t.schema) ∧ Wanted f.schemas f.excludeSchemas t.schema ∧
    Wanted f.views f.excludeViews t.name

/-! ## SQL Server -/

/-- the trigger `g` of `t` is asked for; the list of tables selects among views too -/
def MsTriggerAsked (shipped : MsTrigObject → Prop) (f : ObjFilter) (t g : MsTrigObject) : Prop :=
  g.type = b!"TR" ∧ t.id = g.parent ∧ (f.system = true ∨ ¬ shipped t) ∧
    Wanted f.schemas f.excludeSchemas t.schema ∧ Wanted f.tables f.excludeTables t.name

end Sqddl.Scripts.ObjectSpec
