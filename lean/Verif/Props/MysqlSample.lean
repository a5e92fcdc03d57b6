import Verif.Props.MysqlMigrates
import Verif.Lemmas.DdlDecide

/-!
# A MySQL migration from beginning to end: a sample (C66, C67)

Two versions of a database that meet the conditions of the theorems, the migration between them, and
differences that migrations do not take care of.
-/

namespace EngineSpec.Shop
open SqlSpec Sqddl DdlText CatalogSpec FileSpec Sqddl.Files Sqddl.Mysql

def col (t n ty : Str) (nn : Bool := false) : Column :=
  { tableSchema := b!"shop", tableName := t, columnName := n, columnType := ty, isNotNull := nn }

def pk (t : Str) (cs : List Str) : Constraint :=
  { tableSchema := b!"shop", tableName := t, constraintName := b!"PRIMARY",
    constraintType := b!"PRIMARY KEY", columns := cs }

def fk (t n c r rc : Str) : Constraint :=
  { tableSchema := b!"shop", tableName := t, constraintName := n, constraintType := b!"FOREIGN KEY",
    columns := [c], referencesSchema := b!"shop", referencesTable := r, referencesColumns := [rc],
    deleteRule := b!"CASCADE" }

def idx (t n : Str) (cs : List Str) : Index :=
  { tableSchema := b!"shop", tableName := t, indexName := n, indexType := b!"BTREE", columns := cs,
    descending := cs.map fun _ => false }

/-- Customers and their orders, and a table that is no longer needed. -/
def src : Catalog :=
  { dialect := b!"mysql", currentSchema := b!"shop", defaultCollation := b!"utf8mb4_bin"
    schemas := [{ schemaName := b!"shop", tables := [
      { tableSchema := b!"shop", tableName := b!"customer"
        columns := [{ col b!"customer" b!"id" b!"INT" true with isPrimaryKey := true },
          col b!"customer" b!"name" b!"VARCHAR(50)", col b!"customer" b!"fax" b!"VARCHAR(20)"]
        constraints := [pk b!"customer" [b!"id"]]
        indexes := [idx b!"customer" b!"customer_fax_idx" [b!"fax"]] },
      { tableSchema := b!"shop", tableName := b!"order"
        columns := [{ col b!"order" b!"id" b!"INT" true with isPrimaryKey := true },
          col b!"order" b!"customer_id" b!"INT"]
        constraints := [pk b!"order" [b!"id"]] },
      { tableSchema := b!"shop", tableName := b!"legacy"
        columns := [col b!"legacy" b!"order_id" b!"INT"]
        constraints := [fk b!"legacy" b!"legacy_fk" b!"order_id" b!"order" b!"id"] }] }] }

/-- Names are required and longer, fax numbers are gone, orders reference customers and have items;
a second schema. -/
def dest : Catalog :=
  { dialect := b!"mysql", currentSchema := b!"shop"
    schemas := [{ schemaName := b!"shop", tables := [
      { tableSchema := b!"shop", tableName := b!"customer"
        columns := [{ col b!"customer" b!"id" b!"INTEGER" true with isPrimaryKey := true },
          { col b!"customer" b!"name" b!"VARCHAR(100)" true with columnDefault := b!"'n;a'" },
          { col b!"customer" b!"mail" b!"VARCHAR(99)" with isUnique := true }]
        constraints := [pk b!"customer" [b!"id"],
          { tableSchema := b!"shop", tableName := b!"customer", constraintName := b!"mail key",
            constraintType := b!"UNIQUE", columns := [b!"mail"] }]
        indexes := [idx b!"customer" b!"customer_name_idx" [b!"name", b!"mail"]] },
      { tableSchema := b!"shop", tableName := b!"order"
        columns := [{ col b!"order" b!"id" b!"INT" true with isPrimaryKey := true },
          col b!"order" b!"customer_id" b!"INT"]
        constraints := [pk b!"order" [b!"id"],
          fk b!"order" b!"order customer" b!"customer_id" b!"customer" b!"id"] },
      { tableSchema := b!"shop", tableName := b!"item"
        columns := [{ col b!"item" b!"order" b!"INT" true with isPrimaryKey := true },
          { col b!"item" b!"price" b!"DECIMAL(10,2)" true with columnDefault := b!"(1 + 1)" },
          { col b!"item" b!"gross" b!"DECIMAL(10,2)" with
            isGenerated := true, generatedExpr := b!"price * 2", generatedExprStored := true },
          { col b!"item" b!"note" b!"TEXT" with collationName := b!"latin1_bin" }]
        constraints := [pk b!"item" [b!"order"],
          { tableSchema := b!"shop", tableName := b!"item", constraintName := b!"item_price",
            constraintType := b!"CHECK", checkExpr := b!"price > 0" },
          fk b!"item" b!"item_order" b!"order" b!"order" b!"id"]
        indexes := [idx b!"item" b!"item_price_idx" [b!"price", b!"(price + 1)"]] }] },
      { schemaName := b!"audit" }] }

theorem src_described : Described src := by decide +kernel
theorem dest_described : Described dest := by decide +kernel
theorem comparable (drop : Bool) : Comparable b!"shop" drop src dest := by
  cases drop <;> decide +kernel
theorem expressible : Expressible b!"shop" b!"utf8mb4_bin" src dest := by decide +kernel
theorem nameable : Nameable b!"20200101" src dest := by decide +kernel
theorem src_consistent : (dbOf b!"shop" b!"utf8mb4_bin" src).Consistent :=
  consistent_of (by decide +kernel) (by decide +kernel) (by decide +kernel) (by decide +kernel)
    (by decide +kernel) (by decide +kernel) (by decide +kernel)
theorem dest_consistent : (dbOf b!"shop" b!"utf8mb4_bin" dest).Consistent :=
  consistent_of (by decide +kernel) (by decide +kernel) (by decide +kernel) (by decide +kernel)
    (by decide +kernel) (by decide +kernel) (by decide +kernel)


example : ∃ db, Runs (dbOf b!"shop" b!"utf8mb4_bin" src)
      (plan b!"shop" b!"utf8mb4_bin" (diffEvents .mysql src dest true)) db ∧
    Db.Reached b!"shop" b!"utf8mb4_bin" true src dest db :=
  plan_converges (src := src) src_described dest_described (comparable true) src_consistent
    (by rw [goal_drop]; exact dest_consistent)

example : (plan b!"shop" b!"utf8mb4_bin" (diffEvents .mysql src dest true)).length = 8 := by
  decide +kernel

example : ((sqlSteps b!"shop" b!"utf8mb4_bin" (diffEvents .mysql src dest true)).mapM fun st =>
      runScript .mysql (keywords .mysql) b!"shop" (forward st)).map List.flatten =
    some (plan b!"shop" b!"utf8mb4_bin" (diffEvents .mysql src dest true)) :=
  steps_read_back _ _ _ (plan_text (src := src) src_described dest_described expressible)

/-- The files in the order in which they are generated, which is also that of the directory. -/
def names : List Str :=
  [b!"20200101_01_drop_legacy_fk.sql", b!"20200101_02_schemas.sql", b!"20200101_02_schemas.undo.sql",
   b!"20200101_03_tables.sql", b!"20200101_03_tables.undo.sql", b!"20200101_04_alter_customer.sql",
   b!"20200101_05_add_order_customer.sql", b!"20200101_06_add_item_order.sql"]

theorem names_eq : (migration b!"20200101" src dest true).1.map (·.1) = names := by decide +kernel

example : StepsOk b!"20200101" (sqlSteps b!"shop" b!"utf8mb4_bin" (diffEvents .mysql src dest true)) :=
  (steps_ok (pre := b!"20200101") src_described dest_described nameable _ _).1

theorem listing : Listing (migration b!"20200101" src dest true).1 names :=
  ⟨by rw [names_eq], by decide +kernel⟩

/-- A database that answers, and a directory with the generated files. -/
def env : Migrate.Env :=
  { res := fun _ => .ok, files := fun f => (migration b!"20200101" src dest true).1.lookup f,
    sha := id, now := id, cut := id, rand := id }

def cfg (skip : Bool) : Migrate.Cfg := ⟨.mysql, skip, 10, 1, 2⟩

theorem run_ok (skip : Bool) :
    (Migrate.migrate (cfg skip) env names (Migrate.start ⟨[], fun _ => none⟩)).1 = .ok := by
  cases skip <;> decide +kernel

example : ∃ sts db', readFiles b!"shop" env.files (MigrateSpec.execs
      (Migrate.migrate (cfg false) env names (Migrate.start ⟨[], fun _ => none⟩)).2.log) = some sts ∧
    Runs (dbOf b!"shop" b!"utf8mb4_bin" src) sts db' ∧
    Db.Reached b!"shop" b!"utf8mb4_bin" true src dest db' :=
  generate_migrate_converges_partial (src := src) (comparable true) src_consistent
    (by rw [goal_drop]; exact dest_consistent) src_described dest_described expressible nameable
    listing (by decide) (cfg false) rfl env (fun _ => rfl) _ (fun _ _ => rfl)
    (fun _ h => by cases h) (run_ok false)

example : ∃ sts db', readFiles b!"shop" env.files (MigrateSpec.execs
      (Migrate.migrate (cfg true) env ((migration b!"20200101" src dest true).1.map (·.1))
        (Migrate.start ⟨[], fun _ => none⟩)).2.log) = some sts ∧
    Runs (dbOf b!"shop" b!"utf8mb4_bin" src) sts db' ∧
    Db.Reached b!"shop" b!"utf8mb4_bin" true src dest db' :=
  automigrate_converges_partial (src := src) (comparable true) src_consistent
    (by rw [goal_drop]; exact dest_consistent) src_described dest_described expressible nameable
    (cfg true) rfl rfl env (fun _ => rfl) _ (fun _ h => by cases h)
    (by rw [names_eq]; exact run_ok true)

end EngineSpec.Shop
