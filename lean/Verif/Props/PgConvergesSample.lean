import Verif.Lemmas.PgConvergeDecide
import Verif.Props.PgSample

/-!
# Postgres migrations reach their goal: a sample (C38, C67)

The conditions of the theorems of Verif.Props.PgConverges and Verif.Props.PgMigrates are met by the two
versions of a database in Verif.Props.PgSample, with and without the removal of what is not needed any
more.
-/

namespace PgSpec.Shop
open SqlSpec Sqddl FileSpec Sqddl.Files Sqddl.Postgres
open Sqddl.Postgres.Shop (src dest)

/-- What `Env` is for the sample. -/
abbrev e : Sqddl.Postgres.Env := Sqddl.Postgres.Shop.env

theorem src_described : Described src := by decide +kernel
theorem dest_described : Described dest := by decide +kernel
theorem comparable (drop : Bool) : Comparable b!"shop" b!"C" (lowerThan [14, 2] [12]) drop src dest := by
  cases drop <;> decide +kernel
theorem expressible : Expressible b!"shop" b!"C" src dest := by decide +kernel
theorem nameable : Nameable b!"20200101" src dest := by decide +kernel
theorem src_consistent : Consistent (dbOf b!"shop" b!"C" src) :=
  consistent_of (listed_src (dest := dest)) (by decide +kernel)
theorem goal_consistent (drop : Bool) : Consistent (goalDb b!"shop" b!"C" drop src dest) :=
  consistent_of listed_goal (by cases drop <;> decide +kernel)
theorem passable (drop : Bool) : Passable (dbOf b!"shop" b!"C" src) (goalDb b!"shop" b!"C" drop src dest) :=
  passable_of listed_src listed_goal (by cases drop <;> decide +kernel)

example (drop : Bool) : ∃ db, Runs (dbOf b!"shop" b!"C" src) (plan e (pgEvents src dest drop)) db ∧
    Reached b!"shop" b!"C" drop src dest db :=
  pg_plan_converges_partial (e := e) rfl rfl src_described dest_described (comparable drop)
    src_consistent (goal_consistent drop) (passable drop)

example (drop : Bool) : PlanText e (pgEvents src dest drop) :=
  pg_plan_text (e := e) rfl rfl src_described dest_described (comparable drop) expressible

example (drop : Bool) : ∃ sts db,
    ((sqlSteps e (pgEvents src dest drop)).mapM (readStep b!"shop")).map List.flatten = some sts ∧
    Runs (dbOf b!"shop" b!"C" src) sts db ∧ Reached b!"shop" b!"C" drop src dest db :=
  pg_files_converge_partial (e := e) rfl rfl src_described dest_described (comparable drop)
    src_consistent (goal_consistent drop) (passable drop) expressible

example : (plan e (pgEvents src dest true)).length = 25 ∧
    (plan e (pgEvents src dest false)).length = 20 := by
  decide +kernel

example (drop : Bool) : StepsOk b!"20200101" (sqlSteps e (pgEvents src dest drop)) :=
  (steps_ok (e := e) src_described dest_described nameable rfl rfl).1

/-- The numbers that have a fraction do not matter. -/
def noFloat : Str → Bool := fun _ => false

/-- The files in the order in which they are generated, which is also that of the directory. -/
def names : List Str := (migration noFloat b!"20200101" src dest true).1.map (·.1)

example : names =
    [b!"20200101_01_drop_legacy_order_fkeys.tx.sql", b!"20200101_02_schemas.sql",
     b!"20200101_03_tables.sql", b!"20200101_04_alter_customer.tx.sql",
     b!"20200101_05_validate_customer_not_null.tx.sql",
     b!"20200101_06_create_customer_name_idx.txoff.sql",
     b!"20200101_06_create_customer_name_idx.undo.sql",
     b!"20200101_07_create_mail_key.txoff.sql", b!"20200101_07_create_mail_key.undo.sql",
     b!"20200101_08_add_mail_key.tx.sql", b!"20200101_09_alter_order.tx.sql",
     b!"20200101_10_add_item_order_fkeys.tx.sql", b!"20200101_11_add_order_customer_fkeys.tx.sql",
     b!"20200101_12_validate_order_customer_fkeys.tx.sql"] := by
  decide +kernel

theorem listing : Listing (migration noFloat b!"20200101" src dest true).1 names :=
  ⟨by unfold names; exact List.Perm.refl _, by decide +kernel⟩

/-- A database that answers, and a directory with the generated files. -/
def env : Migrate.Env :=
  { res := fun _ => .ok
    files := fun f => (migration noFloat b!"20200101" src dest true).1.lookup f
    sha := id, now := id, cut := id, rand := id }

def cfg (skip : Bool) : Migrate.Cfg := ⟨.postgres, skip, 10, 1, 2⟩

theorem run_ok (skip : Bool) :
    (Migrate.migrate (cfg skip) env names (Migrate.start ⟨[], fun _ => none⟩)).1 = .ok := by
  cases skip <;> decide +kernel

example : ∃ sts db', readFiles b!"shop" env.files (MigrateSpec.execs
      (Migrate.migrate (cfg false) env names (Migrate.start ⟨[], fun _ => none⟩)).2.log) = some sts ∧
    Runs (dbOf b!"shop" b!"C" src) sts db' ∧ Reached b!"shop" b!"C" true src dest db' :=
  pg_generate_migrate_converges_partial (src := src) (comparable true) src_consistent
    (goal_consistent true) (passable true) src_described dest_described expressible nameable
    listing (by decide +kernel) (cfg false) rfl env (fun _ => rfl) _ (fun _ _ => rfl)
    (fun _ h => by cases h) (run_ok false)

example : ∃ sts db', readFiles b!"shop" env.files (MigrateSpec.execs
      (Migrate.migrate (cfg true) env names (Migrate.start ⟨[], fun _ => none⟩)).2.log) = some sts ∧
    Runs (dbOf b!"shop" b!"C" src) sts db' ∧ Reached b!"shop" b!"C" true src dest db' :=
  pg_automigrate_converges_partial (src := src) (comparable true) src_consistent
    (goal_consistent true) (passable true) src_described dest_described expressible nameable
    (cfg true) rfl rfl env (fun _ => rfl) _ (fun _ h => by cases h) (run_ok true)

end PgSpec.Shop
