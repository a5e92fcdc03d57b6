import Verif.Lemmas.PgDecide

/-!
# A Postgres migration: a sample (C37, C41, C66)

Two versions of a database, and the statements of the migration between them.
-/

namespace Sqddl.Postgres.Shop
open Go SqlSpec DdlText CatalogSpec Sqddl.Files PgText

def col (t n ty : Str) (nn : Bool := false) : Column :=
  { tableSchema := b!"shop", tableName := t, columnName := n, columnType := ty, isNotNull := nn }

def pk (t n : Str) (cs : List Str) : Constraint :=
  { tableSchema := b!"shop", tableName := t, constraintName := n,
    constraintType := b!"PRIMARY KEY", columns := cs }

def fk (t n c r rc : Str) : Constraint :=
  { tableSchema := b!"shop", tableName := t, constraintName := n, constraintType := b!"FOREIGN KEY",
    columns := [c], referencesSchema := b!"shop", referencesTable := r, referencesColumns := [rc],
    deleteRule := b!"CASCADE" }

def idx (t n : Str) (cs : List Str) : Index :=
  { tableSchema := b!"shop", tableName := t, indexName := n, indexType := b!"BTREE", columns := cs,
    descending := cs.map fun _ => false }

/-- Customers and their orders, a table that is no longer needed, and a schema that is not. -/
def src : Catalog :=
  { dialect := b!"postgres", currentSchema := b!"shop", defaultCollation := b!"C",
    versionNums := [14, 2]
    schemas := [{ schemaName := b!"shop", tables := [
      { tableSchema := b!"shop", tableName := b!"customer"
        columns := [{ col b!"customer" b!"id" b!"integer" true with isPrimaryKey := true },
          { col b!"customer" b!"name" b!"character varying(50)" with
            columnDefault := b!"'x'::character varying" },
          { col b!"customer" b!"points" b!"integer" true with columnDefault := b!"0" },
          col b!"customer" b!"fax" b!"character varying(20)"]
        constraints := [pk b!"customer" b!"customer_pkey" [b!"id"]]
        indexes := [idx b!"customer" b!"customer_fax_idx" [b!"fax"]] },
      { tableSchema := b!"shop", tableName := b!"order"
        columns := [{ col b!"order" b!"id" b!"integer" true with isPrimaryKey := true },
          col b!"order" b!"customer_id" b!"integer"]
        constraints := [pk b!"order" b!"order_pkey" [b!"id"]] },
      { tableSchema := b!"shop", tableName := b!"legacy"
        columns := [col b!"legacy" b!"order_id" b!"integer"]
        constraints := [fk b!"legacy" b!"legacy_fk" b!"order_id" b!"order" b!"id"] }] },
      { schemaName := b!"old" }] }

/-- Names are required and longer, fax numbers are gone, orders have numbers and reference customers,
and have items; a second schema. -/
def dest : Catalog :=
  { dialect := b!"postgres", currentSchema := b!"shop"
    schemas := [{ schemaName := b!"shop", tables := [
      { tableSchema := b!"shop", tableName := b!"customer"
        columns := [{ col b!"customer" b!"id" b!"INT" true with isPrimaryKey := true },
          { col b!"customer" b!"name" b!"VARCHAR(100)" true with columnDefault := b!"'n;a'" },
          { col b!"customer" b!"points" b!"BIGINT" with columnDefault := b!"1" },
          { col b!"customer" b!"mail" b!"VARCHAR(99)" with isUnique := true }]
        constraints := [pk b!"customer" b!"customer_pkey" [b!"id"],
          { tableSchema := b!"shop", tableName := b!"customer", constraintName := b!"mail key",
            constraintType := b!"UNIQUE", columns := [b!"mail"] }]
        indexes := [idx b!"customer" b!"customer_name_idx" [b!"name", b!"mail"]] },
      { tableSchema := b!"shop", tableName := b!"order"
        columns := [{ col b!"order" b!"id" b!"INT" true with
            isPrimaryKey := true, columnIdentity := b!"GENERATED ALWAYS AS IDENTITY" },
          col b!"order" b!"customer_id" b!"INT"]
        constraints := [pk b!"order" b!"order_pkey" [b!"id"],
          { fk b!"order" b!"order customer" b!"customer_id" b!"customer" b!"id" with
            isDeferrable := true, isInitiallyDeferred := true }] },
      { tableSchema := b!"shop", tableName := b!"item"
        columns := [{ col b!"item" b!"order" b!"INT" true with isPrimaryKey := true },
          { col b!"item" b!"price" b!"NUMERIC(10,2)" true with columnDefault := b!"(1 + 1)" },
          { col b!"item" b!"gross" b!"NUMERIC(10,2)" with
            isGenerated := true, generatedExpr := b!"price * 2", generatedExprStored := true },
          { col b!"item" b!"note" b!"TEXT" with collationName := b!"POSIX" }]
        constraints := [pk b!"item" b!"item_pkey" [b!"order"],
          { tableSchema := b!"shop", tableName := b!"item", constraintName := b!"item_price",
            constraintType := b!"CHECK", checkExpr := b!"price > 0" },
          fk b!"item" b!"item_order" b!"order" b!"order" b!"id"]
        indexes := [idx b!"item" b!"item_price_idx" [b!"price", b!"(price + 1)"]] }] },
      { schemaName := b!"audit" }] }

def env : Env := ⟨[14, 2], b!"shop", b!"C", fun _ => false⟩

theorem planText (drop : Bool) : PlanText env (pgEvents src dest drop) := by
  cases drop <;> decide +kernel

example : ((sqlSteps env (pgEvents src dest true)).mapM (readStep b!"shop")).map List.flatten =
    some (plan env (pgEvents src dest true)) :=
  sqlSteps_read_back env _ (planText true)

/-- The statements of the migration, in short. -/
def show' : PgText.Stmt → Str
  | .base (.createSchema n) => b!"create schema " ++ n
  | .base (.createTable n _) => b!"create table " ++ n.2
  | .base (.dropTable n) => b!"drop table " ++ n.2
  | .base (.createIndex x) => b!"create index " ++ x.name
  | .base _ => b!"?"
  | .dropSchemaCascade n => b!"drop schema " ++ n
  | .dropIndex n => b!"drop index " ++ n.2
  | .alter n as => n.2 ++ b!":" ++ as.flatMap fun a =>
    match a with
    | .dropConstraint _ c => b!" drop constraint " ++ c
    | .dropColumn c => b!" drop column " ++ c
    | .addColumn c => b!" add column " ++ c.name
    | .setType c _ _ => b!" type of " ++ c
    | .dropDefault c => b!" no default of " ++ c
    | .setDefault c _ => b!" default of " ++ c
    | .dropNotNull c => b!" null " ++ c
    | .setNotNull c => b!" not null " ++ c
    | .dropIdentity c => b!" no identity of " ++ c
    | .addIdentity c _ => b!" identity of " ++ c
    | .addConstraint c => b!" add constraint " ++ c.name.getD []
    | .addKeyUsing c _ _ => b!" add key " ++ c
    | .alterConstraint c _ _ => b!" alter constraint " ++ c
    | .validate c => b!" validate " ++ c

example : (plan env (pgEvents src dest true)).map show' =
    [b!"legacy: drop constraint legacy_fk", b!"drop schema old", b!"create schema audit",
     b!"drop table legacy", b!"create table item", b!"create index item_price_idx",
     b!"drop index customer_fax_idx", b!"customer: drop column fax", b!"customer: add column mail",
     b!"customer: type of name", b!"customer: default of name",
     b!"customer: add constraint customer_name_not_null_check",
     b!"customer: type of points", b!"customer: default of points", b!"customer: null points",
     b!"customer: validate customer_name_not_null_check", b!"customer: not null name",
     b!"customer: drop constraint customer_name_not_null_check",
     b!"create index customer_name_idx", b!"create index mail key", b!"customer: add key mail key",
     b!"order: identity of id", b!"item: add constraint item_order",
     b!"order: add constraint order customer", b!"order: validate order customer"] := by
  decide +kernel

end Sqddl.Postgres.Shop
