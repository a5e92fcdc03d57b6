import Verif.Lemmas.MsConvergeDecide
import Verif.Props.MsSample

/-!
# SQL Server migrations reach their goal: a sample (C38, C67)

The conditions of `ms_plan_converges_partial` are met by two versions of a database, with and without
the removal of what is not needed any more.
-/

namespace MsSpec.Shop
open SqlSpec Sqddl DdlText Sqddl.Sqlserver
open EngineSpec (Key)
open Sqddl.Sqlserver.Shop (col pk fk idx)

/-- Customers, their orders and notes, a table that is no longer needed, and a schema that is not. -/
def src : Catalog :=
  { dialect := b!"sqlserver", currentSchema := b!"dbo", defaultCollation := b!"Latin1_General_CI_AS"
    schemas := [{ schemaName := b!"dbo", tables := [
      { tableSchema := b!"dbo", tableName := b!"customer"
        columns := [{ col b!"customer" b!"id" b!"INT" true with isPrimaryKey := true },
          col b!"customer" b!"name" b!"NVARCHAR(50)",
          { col b!"customer" b!"points" b!"INT" with columnDefault := b!"((0))" },
          col b!"customer" b!"fax" b!"NVARCHAR(20)",
          col b!"customer" b!"code" b!"NVARCHAR(9)",
          { col b!"customer" b!"label" b!"NVARCHAR(9)" with
            isGenerated := true, generatedExpr := b!"upper(code)" },
          { col b!"customer" b!"since" b!"DATE" true with columnDefault := b!"getdate()" }]
        constraints := [pk b!"customer" b!"customer_pkey" [b!"id"]]
        indexes := [idx b!"customer" b!"customer_fax_idx" [b!"fax"],
          idx b!"customer" b!"customer_name_idx" [b!"name", b!"code"]] },
      { tableSchema := b!"dbo", tableName := b!"order"
        columns := [{ col b!"order" b!"nr" b!"INT" true with
            isPrimaryKey := true, columnIdentity := b!"IDENTITY" },
          col b!"order" b!"customer_id" b!"INT"]
        constraints := [pk b!"order" b!"order_pkey" [b!"nr"],
          fk b!"order" b!"order_customer" b!"customer_id" b!"customer" b!"id"] },
      { tableSchema := b!"dbo", tableName := b!"note"
        columns := [col b!"note" b!"order_nr" b!"INT", col b!"note" b!"text" b!"NVARCHAR(200)"] },
      { tableSchema := b!"dbo", tableName := b!"legacy"
        columns := [col b!"legacy" b!"order_nr" b!"INT"]
        constraints := [fk b!"legacy" b!"legacy_fk" b!"order_nr" b!"order" b!"nr"] }] },
      { schemaName := b!"old",
        tables := [
          { tableSchema := b!"old", tableName := b!"t",
            columns := [{ col b!"t" b!"a" b!"INT" with tableSchema := b!"old" }] }] }] }

/-- Customers have larger numbers, and so have the orders that reference them; they have longer names
in another collation, other points, a mail address and no fax number; notes reference orders, and
orders have items; a second schema. -/
def dest : Catalog :=
  { dialect := b!"sqlserver", currentSchema := b!"dbo"
    schemas := [{ schemaName := b!"dbo", tables := [
      { tableSchema := b!"dbo", tableName := b!"customer"
        columns := [{ col b!"customer" b!"id" b!"BIGINT" true with isPrimaryKey := true },
          { col b!"customer" b!"name" b!"NVARCHAR(100)" with collationName := b!"Latin1_General_BIN" },
          { col b!"customer" b!"points" b!"INT" with columnDefault := b!"1" },
          col b!"customer" b!"mail" b!"NVARCHAR(99)",
          col b!"customer" b!"code" b!"NVARCHAR(9)",
          { col b!"customer" b!"label" b!"NVARCHAR(9)" with
            isGenerated := true, generatedExpr := b!"upper(code)" },
          { col b!"customer" b!"since" b!"DATE" true with columnDefault := b!"CURRENT_TIMESTAMP" }]
        constraints := [pk b!"customer" b!"customer_pkey" [b!"id"],
          { tableSchema := b!"dbo", tableName := b!"customer", constraintName := b!"mail key",
            constraintType := b!"UNIQUE", columns := [b!"mail"] }]
        indexes := [idx b!"customer" b!"customer_name_idx" [b!"name", b!"code"],
          idx b!"customer" b!"customer_mail_idx" [b!"mail", b!"name"]] },
      { tableSchema := b!"dbo", tableName := b!"order"
        columns := [{ col b!"order" b!"nr" b!"INT" true with
            isPrimaryKey := true, columnIdentity := b!"IDENTITY" },
          col b!"order" b!"customer_id" b!"BIGINT"]
        constraints := [pk b!"order" b!"order_pkey" [b!"nr"],
          fk b!"order" b!"order_customer" b!"customer_id" b!"customer" b!"id"] },
      { tableSchema := b!"dbo", tableName := b!"note"
        columns := [col b!"note" b!"order_nr" b!"INT", col b!"note" b!"text" b!"NVARCHAR(200)"]
        constraints := [fk b!"note" b!"note order" b!"order_nr" b!"order" b!"nr"] },
      { tableSchema := b!"dbo", tableName := b!"item"
        columns := [{ col b!"item" b!"order" b!"INT" true with isPrimaryKey := true },
          { col b!"item" b!"price" b!"NUMERIC(10,2)" with columnDefault := b!"(1 + 1)" }]
        constraints := [pk b!"item" b!"item_pkey" [b!"order"],
          { tableSchema := b!"dbo", tableName := b!"item", constraintName := b!"item_price",
            constraintType := b!"CHECK", checkExpr := b!"price > 0" },
          fk b!"item" b!"item_order" b!"order" b!"order" b!"nr"]
        indexes := [idx b!"item" b!"item_price_idx" [b!"price"]] }] },
      { schemaName := b!"o'hara" }] }

/-- What `Env` is for the sample. -/
abbrev e : Sqddl.Sqlserver.Env := ⟨b!"dbo", b!"Latin1_General_CI_AS"⟩

/-- The columns have the numbers of their positions. -/
def num (k : Key) (n : Str) : Nat :=
  if k = (b!"dbo", b!"customer") then
    [b!"id", b!"name", b!"points", b!"fax", b!"code", b!"label", b!"since", b!"mail"].idxOf n + 1
  else if k = (b!"dbo", b!"order") then [b!"nr", b!"customer_id"].idxOf n + 1
  else if k = (b!"dbo", b!"note") then [b!"order_nr", b!"text"].idxOf n + 1
  else if k = (b!"dbo", b!"item") then [b!"order", b!"price"].idxOf n + 1
  else 1

/-- Some columns of system tables. -/
def others : List (Str × Nat) := [(b!"name", 1), (b!"id", 2), (b!"text", 3)]

/-- The numbers of the columns. -/
def numbers : Numbers := ⟨num, fun n i => (n, i) ∈ others⟩

theorem src_described : Described src := by decide +kernel
theorem dest_described : Described dest := by decide +kernel
theorem comparable (drop : Bool) : Comparable e.cur e.coll drop src dest := by
  cases drop <;> decide +kernel
theorem src_consistent : Consistent (dbOf e.cur e.coll src) :=
  consistent_of (listed_src (dest := dest)) (by decide +kernel)
theorem goal_consistent (drop : Bool) : Consistent (goalDb e.cur e.coll drop src dest) :=
  consistent_of listed_goal (by cases drop <;> decide +kernel)
theorem passable (drop : Bool) : Passable e.cur e.coll drop src dest (dbOf e.cur e.coll src)
    (goalDb e.cur e.coll drop src dest) :=
  passable_of listed_src listed_goal (by cases drop <;> decide +kernel)
theorem findable (drop : Bool) : Findable numbers src dest (dbOf e.cur e.coll src)
    (goalDb e.cur e.coll drop src dest) :=
  findable_of (by cases drop <;> decide +kernel)

example (drop : Bool) : ∃ fk db, mssqlFkeys (mssqlEvents src dest drop) = some fk ∧
    Runs numbers (dbOf e.cur e.coll src) (plan e (mssqlEvents src dest drop) fk) db ∧
    Reached e.cur e.coll drop src dest db :=
  ms_plan_converges_partial (e := e) rfl src_described dest_described (comparable drop) src_consistent
    (goal_consistent drop) (passable drop) (findable drop)

/-- The groups of the foreign keys. -/
def fkeys : MssqlFkeys := (mssqlFkeys (mssqlEvents src dest true)).getD {}

example : (plan e (mssqlEvents src dest true) fkeys).map Sqddl.Sqlserver.Shop.show' =
    [b!"legacy: drop constraint legacy_fk", b!"order: drop constraint order_customer", b!"drop table t",
     b!"drop schema old", b!"create schema o'hara", b!"drop table legacy", b!"create table item",
     b!"create index item_price_idx", b!"drop index customer_fax_idx", b!"drop index customer_name_idx",
     b!"customer: drop constraint customer_pkey", b!"customer: drop column fax",
     b!"customer: add column mail", b!"customer: not null id", b!"customer: type of name",
     b!"customer: no default of points", b!"customer: default of points",
     b!"create index customer_mail_idx", b!"create index customer_name_idx",
     b!"customer: add constraint mail key", b!"customer: add constraint customer_pkey",
     b!"order: type of customer_id", b!"item: add constraint item_order",
     b!"order: add constraint order_customer", b!"note: add constraint note order"] := by
  decide +kernel

end MsSpec.Shop
