import Verif.Lemmas.MsDecide

/-!
# A SQL Server migration: a sample (C37, C39, C66)

Two versions of a database, and the statements of the migration between them.
-/

namespace Sqddl.Sqlserver.Shop
open Go SqlSpec DdlText CatalogSpec Sqddl.Files MsText

def col (t n ty : Str) (nn : Bool := false) : Column :=
  { tableSchema := b!"dbo", tableName := t, columnName := n, columnType := ty, isNotNull := nn }

def pk (t n : Str) (cs : List Str) : Constraint :=
  { tableSchema := b!"dbo", tableName := t, constraintName := n,
    constraintType := b!"PRIMARY KEY", columns := cs }

def fk (t n c r rc : Str) : Constraint :=
  { tableSchema := b!"dbo", tableName := t, constraintName := n, constraintType := b!"FOREIGN KEY",
    columns := [c], referencesSchema := b!"dbo", referencesTable := r, referencesColumns := [rc],
    deleteRule := b!"CASCADE" }

def idx (t n : Str) (cs : List Str) : Index :=
  { tableSchema := b!"dbo", tableName := t, indexName := n, columns := cs,
    descending := cs.map fun _ => false }

/-- Customers and their orders, a table that is no longer needed, and a schema that is not. -/
def src : Catalog :=
  { dialect := b!"sqlserver", currentSchema := b!"dbo", defaultCollation := b!"Latin1_General_CI_AS"
    schemas := [{ schemaName := b!"dbo", tables := [
      { tableSchema := b!"dbo", tableName := b!"customer"
        columns := [{ col b!"customer" b!"id" b!"INT" true with isPrimaryKey := true },
          { col b!"customer" b!"name" b!"NVARCHAR(50)" with columnDefault := b!"('x')" },
          { col b!"customer" b!"points" b!"INT" true with columnDefault := b!"((0))" },
          col b!"customer" b!"fax" b!"NVARCHAR(20)"]
        constraints := [pk b!"customer" b!"customer_pkey" [b!"id"]]
        indexes := [idx b!"customer" b!"customer_fax_idx" [b!"fax"],
          idx b!"customer" b!"customer_name_idx" [b!"name"]] },
      { tableSchema := b!"dbo", tableName := b!"order"
        columns := [{ col b!"order" b!"id" b!"INT" true with isPrimaryKey := true },
          col b!"order" b!"customer_id" b!"INT"]
        constraints := [pk b!"order" b!"order_pkey" [b!"id"]] },
      { tableSchema := b!"dbo", tableName := b!"legacy"
        columns := [col b!"legacy" b!"order_id" b!"INT"]
        constraints := [fk b!"legacy" b!"legacy_fk" b!"order_id" b!"order" b!"id"] }] },
      { schemaName := b!"old",
        views := [{ viewSchema := b!"old", viewName := b!"who's" }],
        tables := [
          { tableSchema := b!"old", tableName := b!"t",
            columns := [{ col b!"t" b!"a" b!"INT" with tableSchema := b!"old" }] }],
        routines := [{ routineSchema := b!"old", routineName := b!"f", routineType := b!"FUNCTION" }] }] }

/-- Names are longer, fax numbers are gone, points may be missing; orders reference customers and
have items; a second schema. -/
def dest : Catalog :=
  { dialect := b!"sqlserver", currentSchema := b!"dbo"
    schemas := [{ schemaName := b!"dbo", tables := [
      { tableSchema := b!"dbo", tableName := b!"customer"
        columns := [{ col b!"customer" b!"id" b!"INT" true with isPrimaryKey := true },
          { col b!"customer" b!"name" b!"NVARCHAR(100)" with
            columnDefault := b!"'n;a'", collationName := b!"Latin1_General_BIN" },
          { col b!"customer" b!"points" b!"INT" with columnDefault := b!"1" },
          col b!"customer" b!"mail" b!"NVARCHAR(99)"]
        constraints := [pk b!"customer" b!"customer_pkey" [b!"id"],
          { tableSchema := b!"dbo", tableName := b!"customer", constraintName := b!"mail key",
            constraintType := b!"UNIQUE", columns := [b!"mail"] }]
        indexes := [idx b!"customer" b!"customer_name_idx" [b!"name"],
          idx b!"customer" b!"customer_mail_idx" [b!"mail", b!"name"]] },
      { tableSchema := b!"dbo", tableName := b!"order"
        columns := [{ col b!"order" b!"id" b!"INT" true with isPrimaryKey := true },
          col b!"order" b!"customer_id" b!"INT"]
        constraints := [pk b!"order" b!"order_pkey" [b!"id"],
          fk b!"order" b!"order customer" b!"customer_id" b!"customer" b!"id"] },
      { tableSchema := b!"dbo", tableName := b!"item"
        columns := [{ col b!"item" b!"order" b!"INT" true with isPrimaryKey := true },
          { col b!"item" b!"price" b!"NUMERIC(10,2)" true with columnDefault := b!"(1 + 1)" }]
        constraints := [pk b!"item" b!"item_pkey" [b!"order"],
          { tableSchema := b!"dbo", tableName := b!"item", constraintName := b!"item_price",
            constraintType := b!"CHECK", checkExpr := b!"price > 0" },
          fk b!"item" b!"item_order" b!"order" b!"order" b!"id"]
        indexes := [idx b!"item" b!"item_price_idx" [b!"price"]] }] },
      { schemaName := b!"o'hara" }] }

def env : Env := ⟨b!"dbo", b!"Latin1_General_CI_AS"⟩

/-- The groups of the foreign keys. -/
def fkeys : MssqlFkeys := (mssqlFkeys (mssqlEvents src dest true)).getD {}

example : (mssqlFkeys (mssqlEvents src dest true)).isSome = true := by decide +kernel

theorem planText : PlanText env (mssqlEvents src dest true) fkeys := by decide +kernel

example : ((sqlSteps env (mssqlEvents src dest true) fkeys).mapM (readStep b!"dbo")).map List.flatten =
    some (plan env (mssqlEvents src dest true) fkeys) :=
  sqlSteps_read_back env _ _ planText

/-- The statements of the migration, in short. -/
def show' : MsText.Stmt → Str
  | .base (.createTable n _) => b!"create table " ++ n.2
  | .base (.createIndex x) => b!"create index " ++ x.name
  | .base _ => b!"?"
  | .createSchema _ n => b!"create schema " ++ n
  | .dropSchema n => b!"drop schema " ++ n
  | .drop .view n => b!"drop view " ++ n.2
  | .drop .table n => b!"drop table " ++ n.2
  | .drop .procedure n => b!"drop procedure " ++ n.2
  | .drop .function n => b!"drop function " ++ n.2
  | .dropIndex x _ => b!"drop index " ++ x
  | .dropDefault _ t c _ => t ++ b!": no default of " ++ c
  | .alter n a => n.2 ++ b!":" ++
    match a with
    | .dropConstraint c => b!" drop constraint " ++ c
    | .dropColumn c => b!" drop column " ++ c
    | .addColumn c => b!" add column " ++ c.name
    | .addConstraint c => b!" add constraint " ++ c.name.getD []
    | .addDefault _ c => b!" default of " ++ c
    | .alterColumn c _ _ none => b!" type of " ++ c
    | .alterColumn c _ _ (some true) => b!" not null " ++ c
    | .alterColumn c _ _ (some false) => b!" null " ++ c

example : (plan env (mssqlEvents src dest true) fkeys).map show' =
    [b!"legacy: drop constraint legacy_fk", b!"drop view who's", b!"drop table t", b!"drop function f",
     b!"drop schema old", b!"create schema o'hara", b!"drop table legacy", b!"create table item",
     b!"create index item_price_idx", b!"drop index customer_fax_idx", b!"drop index customer_name_idx",
     b!"customer: drop column fax", b!"customer: add column mail", b!"customer: type of name",
     b!"customer: no default of name", b!"customer: default of name", b!"customer: null points",
     b!"customer: no default of points", b!"customer: default of points",
     b!"create index customer_mail_idx", b!"create index customer_name_idx",
     b!"customer: add constraint mail key", b!"item: add constraint item_order",
     b!"order: add constraint order customer"] := by
  decide +kernel

end Sqddl.Sqlserver.Shop
