import Verif.Props.MsMigrates
import Verif.Props.MsConvergesSample
import Verif.Props.MsRefuted

/-!
# SQL Server migrations that are run: a sample, and a schema that is not dropped (C67)

The conditions of `ms_generate_migrate_converges_partial` and `ms_automigrate_converges_partial` are met
by two versions of a database.
-/

namespace MsSpec.Shop
open SqlSpec Sqddl DdlText FileSpec Sqddl.Sqlserver Sqddl.Files

theorem expressible : Expressible e.cur e.coll src dest := by decide +kernel
theorem nameable : Nameable b!"20200101" src dest := by decide +kernel

/-- The files of the migration. -/
def files : List File := ((migration b!"20200101" src dest true).map (·.1)).getD []

/-- Their names. -/
def names : List Str := files.map (·.1)

example : names =
    [b!"20200101_01_drop_legacy_order_fkeys.tx.sql", b!"20200101_02_drop_order_customer_fkeys.tx.sql",
     b!"20200101_03_drop_old.sql", b!"20200101_04_create_schemas.sql", b!"20200101_05_tables.sql",
     b!"20200101_06_alter_customer.tx.sql", b!"20200101_07_create_customer_mail_idx.tx.sql",
     b!"20200101_08_create_customer_name_idx.tx.sql", b!"20200101_09_add_mail key.tx.sql",
     b!"20200101_10_add_customer_pkey.tx.sql", b!"20200101_11_alter_order.tx.sql",
     b!"20200101_12_add_item_order_fkeys.tx.sql", b!"20200101_13_add_order_customer_fkeys.tx.sql",
     b!"20200101_14_add_note_order_fkeys.tx.sql"] := by
  decide +kernel

theorem listing : Listing files names := ⟨by unfold names; exact List.Perm.refl _, by decide +kernel⟩

/-- A database that answers, and a directory with the generated files. -/
def env : Migrate.Env :=
  { res := fun _ => .ok
    files := fun f => files.lookup f
    sha := id, now := id, cut := id, rand := id }

def cfg (skip : Bool) : Migrate.Cfg := ⟨.sqlserver, skip, 10, 1, 2⟩

theorem run_ok (skip : Bool) :
    (Migrate.migrate (cfg skip) env names (Migrate.start ⟨[], fun _ => none⟩)).1 = .ok := by
  cases skip <;> decide +kernel

example : ∃ sts db', readFiles b!"dbo" env.files (MigrateSpec.execs
      (Migrate.migrate (cfg false) env names (Migrate.start ⟨[], fun _ => none⟩)).2.log) = some sts ∧
    Runs numbers (dbOf e.cur e.coll src) sts db' ∧ Reached e.cur e.coll true src dest db' := by
  obtain ⟨fs, ws, h1, h2⟩ := ms_generate_migrate_converges_partial (src := src) (pre := b!"20200101")
    src_described dest_described (comparable true) src_consistent (goal_consistent true) (passable true)
    (findable true) expressible nameable
  have h3 : files = fs := by unfold files; rw [h1]; rfl
  subst h3
  exact h2 listing (by decide +kernel) (cfg false) rfl env (fun _ => rfl) _ (fun _ _ => rfl)
    (fun _ h => by cases h) (run_ok false)

example : ∃ sts db', readFiles b!"dbo" env.files (MigrateSpec.execs
      (Migrate.migrate (cfg true) env names (Migrate.start ⟨[], fun _ => none⟩)).2.log) = some sts ∧
    Runs numbers (dbOf e.cur e.coll src) sts db' ∧ Reached e.cur e.coll true src dest db' := by
  obtain ⟨fs, ws, h1, h2⟩ := ms_automigrate_converges_partial (src := src) (pre := b!"20200101")
    src_described dest_described (comparable true) src_consistent (goal_consistent true) (passable true)
    (findable true) expressible nameable
  have h3 : files = fs := by unfold files; rw [h1]; rfl
  subst h3
  exact h2 (cfg true) rfl rfl env (fun _ => rfl) _ (fun _ h => by cases h) (run_ok true)

end MsSpec.Shop

namespace MsSpec.Undo
open SqlSpec Sqddl DdlText FileSpec Sqddl.Sqlserver Sqddl.Files

/-- A database with a schema that is named like the end of a migration that undoes another one. -/
def src : Catalog :=
  { dialect := b!"sqlserver", currentSchema := b!"dbo", defaultCollation := b!"C"
    schemas := [{ schemaName := b!"dbo" }, { schemaName := b!"old.undo" }] }

/-- It is not needed any more. -/
def dest : Catalog :=
  { dialect := b!"sqlserver", currentSchema := b!"dbo", defaultCollation := b!"C"
    schemas := [{ schemaName := b!"dbo" }] }

/-- C67 fails: the file that drops a schema whose name ends in `.undo` is written, but `migrate` does not
run it, because it takes it for a file that undoes another one.  All the conditions of
`ms_generate_migrate_converges_partial` are met but for the one about such names. -/
theorem ms_undo_schema_refuted (N : Numbers) : ∃ src dest fs ws,
    Versions true src dest ∧ Comparable src.currentSchema src.defaultCollation true src dest ∧
    Expressible src.currentSchema src.defaultCollation src dest ∧
    migration b!"20200101" src dest true = some (fs, ws) ∧ fs.length = 1 ∧
    ∀ (cfg : Migrate.Cfg), cfg.dialect = .sqlserver → ∀ (env : Migrate.Env), (∀ t, env.res t ≠ .lock) →
      ∀ (db : Migrate.DB),
        (Migrate.migrate cfg env (sortAndFilter (fs.map (·.1))) (Migrate.start db)).1 = .ok →
        ∀ sts db', readFiles src.currentSchema env.files (MigrateSpec.execs
            (Migrate.migrate cfg env (sortAndFilter (fs.map (·.1))) (Migrate.start db)).2.log) = some sts →
          Runs N (dbOf src.currentSchema src.defaultCollation src) sts db' →
          ¬ Reached src.currentSchema src.defaultCollation true src dest db' := by
  refine ⟨src, dest, ((migration b!"20200101" src dest true).map (·.1)).getD [], [],
    versions_of (by decide +kernel) (by decide +kernel) (by decide +kernel) (by decide +kernel),
    by decide +kernel, by decide +kernel, by decide +kernel, by decide +kernel, ?_⟩
  rw [show sortAndFilter ((((migration b!"20200101" src dest true).map (·.1)).getD []).map (·.1)) = []
    by decide +kernel]
  intro cfg hcfg env hlock db hok sts db' h1 h2 h3
  rw [Migrate.migrate_ok_execs_eq cfg env [] db (by simp) (by simp) hlock hok,
    Migrate.pending_all (by simp)] at h1
  obtain rfl := Option.some.inj (show some [] = some sts from h1)
  obtain rfl : dbOf src.currentSchema src.defaultCollation src = db' := h2
  have h4 := congrFun h3.schema b!"old.undo"
  revert h4
  decide +kernel

end MsSpec.Undo
