import Verif.Props.MysqlSample

/-!
# MySQL migrations that do not reach their goal (C67)

Each of the conditions `Comparable` and `Nameable` of the theorems of Verif.Props.MysqlMigrates is
needed: without it there are two versions of a database such that the migration between them leaves
the old database as it is, or is not run at all.
-/

namespace EngineSpec
open SqlSpec Sqddl DdlText CatalogSpec FileSpec Sqddl.Files Sqddl.Mysql

/-- The full claim: the files that `migrate` picks up are statements that the database accepts, and
that turn it into the goal of the migration. -/
def Converges (pre : Str) (drop : Bool) (src dest : Catalog) : Prop :=
  ∃ sts db', readFiles src.currentSchema (fun f => (migration pre src dest drop).1.lookup f)
      (sortAndFilter ((migration pre src dest drop).1.map (·.1))) = some sts ∧
    Runs (dbOf src.currentSchema src.defaultCollation src) sts db' ∧
    db' = Db.goal drop (dbOf src.currentSchema src.defaultCollation src)
      (dbOf src.currentSchema src.defaultCollation dest)

/-- Two versions of a database that exist and can be expressed in SQL. -/
structure Versions (a b : Catalog) : Prop where
  src : Described a
  dest : Described b
  text : Expressible a.currentSchema a.defaultCollation a b
  srcOk : (dbOf a.currentSchema a.defaultCollation a).Consistent
  destOk : (dbOf a.currentSchema a.defaultCollation b).Consistent

theorem not_converges {pre : Str} {drop : Bool} {src dest : Catalog} {β : Type} (obs : Db → β)
    (hr : readFiles src.currentSchema (fun f => (migration pre src dest drop).1.lookup f)
      (sortAndFilter ((migration pre src dest drop).1.map (·.1))) = some [])
    (ho : obs (dbOf src.currentSchema src.defaultCollation src) ≠
      obs (Db.goal drop (dbOf src.currentSchema src.defaultCollation src)
        (dbOf src.currentSchema src.defaultCollation dest))) :
    ¬ Converges pre drop src dest := by
  rintro ⟨sts, db', h1, h2, h3⟩
  rw [hr] at h1
  cases h1
  have : dbOf src.currentSchema src.defaultCollation src = db' := h2
  exact ho (congrArg obs (this.trans h3))

namespace Shop

/-- The constraint of a table. -/
def conAt (t n : Str) (db : Db) : Option Con := (db.table (b!"shop", t)).bind (·.con n)
def idxAt (t n : Str) (db : Db) : Option Idx := (db.table (b!"shop", t)).bind (·.idx n)
def colAt (t n : Str) (db : Db) : Option Col := (db.table (b!"shop", t)).bind (·.col n)

/-- A database with a table `person`, and a table `pet` with the columns given, and other
constraints and indexes. -/
def pets (cols : List Column) (cons : List Constraint) (idxs : List Index) : Catalog :=
  { dialect := b!"mysql", currentSchema := b!"shop", defaultCollation := b!"utf8mb4_bin"
    schemas := [{ schemaName := b!"shop", tables := [
      { tableSchema := b!"shop", tableName := b!"person"
        columns := [{ col b!"person" b!"id" b!"INT" true with isPrimaryKey := true }]
        constraints := [pk b!"person" [b!"id"]] },
      { tableSchema := b!"shop", tableName := b!"pet"
        columns := { col b!"pet" b!"id" b!"INT" true with isPrimaryKey := true } ::
          col b!"pet" b!"owner" b!"INT" :: col b!"pet" b!"vet" b!"INT" :: cols
        constraints := pk b!"pet" [b!"id"] :: cons
        indexes := idxs }] }] }

/-- C67: a foreign key that changes its column under the same name is left as it is. -/
theorem changed_fkey_refuted : ∃ src dest, Versions src dest ∧ Nameable b!"1" src dest ∧
    ∀ drop, ¬ Converges b!"1" drop src dest := by
  refine ⟨pets [] [fk b!"pet" b!"pet_fk" b!"owner" b!"person" b!"id"] [],
    pets [] [fk b!"pet" b!"pet_fk" b!"vet" b!"person" b!"id"] [],
    ⟨by decide +kernel, by decide +kernel, by decide +kernel, ?_, ?_⟩, by decide +kernel, ?_⟩
  · exact consistent_of (by decide +kernel) (by decide +kernel) (by decide +kernel)
      (by decide +kernel) (by decide +kernel) (by decide +kernel) (by decide +kernel)
  · exact consistent_of (by decide +kernel) (by decide +kernel) (by decide +kernel)
      (by decide +kernel) (by decide +kernel) (by decide +kernel) (by decide +kernel)
  · intro drop
    refine not_converges (conAt b!"pet" b!"pet_fk") ?_ ?_ <;> cases drop <;> decide +kernel

/-- C67: an index that changes its columns under the same name is left as it is. -/
theorem changed_index_refuted : ∃ src dest, Versions src dest ∧ Nameable b!"1" src dest ∧
    ∀ drop, ¬ Converges b!"1" drop src dest := by
  refine ⟨pets [] [] [idx b!"pet" b!"pet_idx" [b!"owner"]],
    pets [] [] [idx b!"pet" b!"pet_idx" [b!"owner", b!"vet"]],
    ⟨by decide +kernel, by decide +kernel, by decide +kernel, ?_, ?_⟩, by decide +kernel, ?_⟩
  · exact consistent_of (by decide +kernel) (by decide +kernel) (by decide +kernel)
      (by decide +kernel) (by decide +kernel) (by decide +kernel) (by decide +kernel)
  · exact consistent_of (by decide +kernel) (by decide +kernel) (by decide +kernel)
      (by decide +kernel) (by decide +kernel) (by decide +kernel) (by decide +kernel)
  · intro drop
    refine not_converges (idxAt b!"pet" b!"pet_idx") ?_ ?_ <;> cases drop <;> decide +kernel

/-- C67: a CHECK constraint is not added to a table that exists already. -/
theorem added_check_refuted : ∃ src dest, Versions src dest ∧ Nameable b!"1" src dest ∧
    ∀ drop, ¬ Converges b!"1" drop src dest := by
  refine ⟨pets [] [] [],
    pets [] [{ pk b!"pet" [] with
      constraintName := b!"pet_check", constraintType := b!"CHECK", checkExpr := b!"owner > vet" }] [],
    ⟨by decide +kernel, by decide +kernel, by decide +kernel, ?_, ?_⟩, by decide +kernel, ?_⟩
  · exact consistent_of (by decide +kernel) (by decide +kernel) (by decide +kernel)
      (by decide +kernel) (by decide +kernel) (by decide +kernel) (by decide +kernel)
  · exact consistent_of (by decide +kernel) (by decide +kernel) (by decide +kernel)
      (by decide +kernel) (by decide +kernel) (by decide +kernel) (by decide +kernel)
  · intro drop
    refine not_converges (conAt b!"pet" b!"pet_check") ?_ ?_ <;> cases drop <;> decide +kernel

/-- C67: a column that is to be dropped stays if nothing else changes in its table. -/
theorem dropped_column_refuted : ∃ src dest, Versions src dest ∧ Nameable b!"1" src dest ∧
    ¬ Converges b!"1" true src dest := by
  refine ⟨pets [col b!"pet" b!"name" b!"TEXT"] [] [], pets [] [] [],
    ⟨by decide +kernel, by decide +kernel, by decide +kernel, ?_, ?_⟩, by decide +kernel, ?_⟩
  · exact consistent_of (by decide +kernel) (by decide +kernel) (by decide +kernel)
      (by decide +kernel) (by decide +kernel) (by decide +kernel) (by decide +kernel)
  · exact consistent_of (by decide +kernel) (by decide +kernel) (by decide +kernel)
      (by decide +kernel) (by decide +kernel) (by decide +kernel) (by decide +kernel)
  · refine not_converges (colAt b!"pet" b!"name") ?_ ?_ <;> decide +kernel

/-- C67: a change of the expression of a generated column is not noticed, even though the versions
are `Comparable`: the columns count as `Unchanged`. -/
theorem changed_column_refuted : ∃ src dest, Versions src dest ∧ Nameable b!"1" src dest ∧
    Comparable src.currentSchema true src dest ∧ ∀ drop, ¬ Converges b!"1" drop src dest := by
  refine ⟨pets [{ col b!"pet" b!"sum" b!"INT" with
      isGenerated := true, generatedExpr := b!"owner + vet" }] [] [],
    pets [{ col b!"pet" b!"sum" b!"INT" with
      isGenerated := true, generatedExpr := b!"owner - vet" }] [] [],
    ⟨by decide +kernel, by decide +kernel, by decide +kernel, ?_, ?_⟩, by decide +kernel,
    by decide +kernel, ?_⟩
  · exact consistent_of (by decide +kernel) (by decide +kernel) (by decide +kernel)
      (by decide +kernel) (by decide +kernel) (by decide +kernel) (by decide +kernel)
  · exact consistent_of (by decide +kernel) (by decide +kernel) (by decide +kernel)
      (by decide +kernel) (by decide +kernel) (by decide +kernel) (by decide +kernel)
  · intro drop
    refine not_converges (colAt b!"pet" b!"sum") ?_ ?_ <;> cases drop <;> decide +kernel

/-- C67: the file of a foreign key whose name ends in `.undo` is not run by `migrate`. -/
theorem undo_name_refuted : ∃ src dest, Versions src dest ∧
    (∀ drop, Comparable src.currentSchema drop src dest) ∧ ∀ drop, ¬ Converges b!"1" drop src dest := by
  refine ⟨pets [] [] [], pets [] [fk b!"pet" b!"pet.undo" b!"owner" b!"person" b!"id"] [],
    ⟨by decide +kernel, by decide +kernel, by decide +kernel, ?_, ?_⟩, ?_, ?_⟩
  · exact consistent_of (by decide +kernel) (by decide +kernel) (by decide +kernel)
      (by decide +kernel) (by decide +kernel) (by decide +kernel) (by decide +kernel)
  · exact consistent_of (by decide +kernel) (by decide +kernel) (by decide +kernel)
      (by decide +kernel) (by decide +kernel) (by decide +kernel) (by decide +kernel)
  · intro drop; cases drop <;> decide +kernel
  · intro drop
    refine not_converges (conAt b!"pet" b!"pet.undo") ?_ ?_ <;> cases drop <;> decide +kernel

end Shop
end EngineSpec
