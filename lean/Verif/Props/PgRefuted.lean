import Verif.Props.PgConvergesSample

/-!
# Postgres migrations that do not reach their goal (C38, C67)

Conditions of the theorems of Verif.Props.PgMigrates are needed: without them there are two versions of
a database such that the server refuses a statement of the migration between them, or such that the
migration does not lead to the goal.
-/

namespace PgSpec
open SqlSpec Sqddl DdlText PgText FileSpec Sqddl.Files Sqddl.Postgres
open EngineSpec (Key Tbl Db key)
open PgText (Act Stmt)
open CatalogSpec (liveColumns liveConstraints liveIndexes commonTables liveTables)

/-- The files that `migrate` picks up are statements that the database accepts, and that turn it into
the goal of the migration. -/
def Converges (pre : Str) (drop : Bool) (src dest : Catalog) : Prop :=
  ∃ sts db', readFiles src.currentSchema
      (fun f => (migration (fun _ => false) pre src dest drop).1.lookup f)
      (sortAndFilter ((migration (fun _ => false) pre src dest drop).1.map (·.1))) = some sts ∧
    Runs (dbOf src.currentSchema src.defaultCollation src) sts db' ∧
    Reached src.currentSchema src.defaultCollation drop src dest db'

/-- Two versions of a database that exist and can be expressed in SQL. -/
structure Versions (pre : Str) (drop : Bool) (a b : Catalog) : Prop where
  src : Described a
  dest : Described b
  text : Expressible a.currentSchema a.defaultCollation a b
  name : Nameable pre a b
  srcOk : Consistent (dbOf a.currentSchema a.defaultCollation a)
  goalOk : Consistent (goalDb a.currentSchema a.defaultCollation drop a b)

theorem versions_of {pre : Str} {drop : Bool} {a b : Catalog} (h1 : Described a) (h2 : Described b)
    (h3 : Expressible a.currentSchema a.defaultCollation a b) (h4 : Nameable pre a b)
    (h5 : ConsistentCheck (namesOf a b) (dbOf a.currentSchema a.defaultCollation a))
    (h6 : ConsistentCheck (namesOf a b) (goalDb a.currentSchema a.defaultCollation drop a b)) :
    Versions pre drop a b :=
  ⟨h1, h2, h3, h4, consistent_of listed_src h5, consistent_of listed_goal h6⟩

theorem runs_end {db db' : Db} {sts : List PgText.Stmt} (h : Runs db sts db') :
    db' = sts.foldl effect db := by
  induction sts generalizing db with
  | nil => exact h.symm
  | cons s r ih => exact ih h.2

section
variable {pre : Str} {drop : Bool} {src dest : Catalog}

/-- The first statement is refused. -/
theorem not_accepted {st : PgText.Stmt} {r : List PgText.Stmt}
    (hr : readFiles src.currentSchema
      (fun f => (migration (fun _ => false) pre src dest drop).1.lookup f)
      (sortAndFilter ((migration (fun _ => false) pre src dest drop).1.map (·.1))) = some (st :: r))
    (hn : ¬ Accepts (dbOf src.currentSchema src.defaultCollation src) st) :
    ¬ Converges pre drop src dest := by
  rintro ⟨sts, db', h1, h2, -⟩
  rw [hr] at h1
  injection h1 with h1
  subst h1
  exact hn h2.1

/-- The constraints and indexes of a table are not those of the goal. -/
theorem not_reached {β : Type} (obs : (Str → Option Con) → (Str → Option Idx) → β)
    (sts : List PgText.Stmt)
    (hr : readFiles src.currentSchema
      (fun f => (migration (fun _ => false) pre src dest drop).1.lookup f)
      (sortAndFilter ((migration (fun _ => false) pre src dest drop).1.map (·.1))) = some sts)
    (p : Table × Table) (hp : p ∈ commonTables src dest)
    (ho : ((sts.foldl effect (dbOf src.currentSchema src.defaultCollation src)).table
        (p.2.tableSchema, p.2.tableName)).map (fun u => obs u.con u.idx) ≠
      some (obs (goalTbl src.currentSchema src.defaultCollation drop p.1 p.2).con
        (goalTbl src.currentSchema src.defaultCollation drop p.1 p.2).idx)) :
    ¬ Converges pre drop src dest := by
  rintro ⟨sts', db', h1, h2, h3⟩
  rw [hr] at h1
  injection h1 with h1
  subst h1
  obtain ⟨u, h4, h5⟩ := h3.common p hp
  rw [← runs_end h2, h4, Option.map_some, h5.con, h5.idx] at ho
  exact ho rfl

end

namespace Pets
open Sqddl.Postgres.Shop (col pk fk idx)

/-- A database with a table `person`, and a table `pet` with the columns given, and other
constraints and indexes. -/
def pets (cols : List Column) (cons : List Constraint) (idxs : List Index)
    (personCons : List Constraint := []) (personIdxs : List Index := []) : Catalog :=
  { dialect := b!"postgres", currentSchema := b!"shop", defaultCollation := b!"C"
    versionNums := [14]
    schemas := [{ schemaName := b!"shop", tables := [
      { tableSchema := b!"shop", tableName := b!"person"
        columns := [{ col b!"person" b!"id" b!"INT" true with isPrimaryKey := true },
          col b!"person" b!"mail" b!"INT"]
        constraints := pk b!"person" b!"person_pkey" [b!"id"] :: personCons
        indexes := personIdxs },
      { tableSchema := b!"shop", tableName := b!"pet"
        columns := col b!"pet" b!"owner" b!"INT" :: col b!"pet" b!"vet" b!"INT" :: cols
        constraints := cons
        indexes := idxs }] }] }

/-- A unique constraint. -/
def uq (t n c : Str) : Constraint :=
  { tableSchema := b!"shop", tableName := t, constraintName := n, constraintType := b!"UNIQUE",
    columns := [c] }

/-- C67 fails: a foreign key that changes its column under the same name is left as it is. -/
theorem pg_changed_fkey_refuted (drop : Bool) : ∃ src dest, Versions b!"1" drop src dest ∧
    ¬ Converges b!"1" drop src dest := by
  let a := pets [] [fk b!"pet" b!"pet_fk" b!"owner" b!"person" b!"id"] []
  let b := pets [] [fk b!"pet" b!"pet_fk" b!"vet" b!"person" b!"id"] []
  refine ⟨a, b, versions_of (by decide +kernel) (by decide +kernel) (by decide +kernel)
    (by decide +kernel) (by decide +kernel) (by cases drop <;> decide +kernel), ?_⟩
  refine not_reached (fun c _ => c b!"pet_fk") [] (by cases drop <;> decide +kernel)
    (a.schemas[0].tables[1], b.schemas[0].tables[1]) (by decide +kernel) ?_
  cases drop <;> decide +kernel

/-- C67 fails: an index that changes its columns under the same name is left as it is. -/
theorem pg_changed_index_refuted (drop : Bool) : ∃ src dest, Versions b!"1" drop src dest ∧
    ¬ Converges b!"1" drop src dest := by
  let a := pets [] [] [idx b!"pet" b!"pet_idx" [b!"owner"]]
  let b := pets [] [] [idx b!"pet" b!"pet_idx" [b!"owner", b!"vet"]]
  refine ⟨a, b, versions_of (by decide +kernel) (by decide +kernel) (by decide +kernel)
    (by decide +kernel) (by decide +kernel) (by cases drop <;> decide +kernel), ?_⟩
  refine not_reached (fun _ i => i b!"pet_idx") [] (by cases drop <;> decide +kernel)
    (a.schemas[0].tables[1], b.schemas[0].tables[1]) (by decide +kernel) ?_
  cases drop <;> decide +kernel

/-- C67 fails: a CHECK constraint is not added to a table that exists already. -/
theorem pg_added_check_refuted (drop : Bool) : ∃ src dest, Versions b!"1" drop src dest ∧
    ¬ Converges b!"1" drop src dest := by
  let a := pets [] [] []
  let b := pets [] [{ uq b!"pet" b!"pet_check" [] with
    constraintType := b!"CHECK", checkExpr := b!"owner > vet" }] []
  refine ⟨a, b, versions_of (by decide +kernel) (by decide +kernel) (by decide +kernel)
    (by decide +kernel) (by decide +kernel) (by cases drop <;> decide +kernel), ?_⟩
  refine not_reached (fun c _ => c b!"pet_check") [] (by cases drop <;> decide +kernel)
    (a.schemas[0].tables[1], b.schemas[0].tables[1]) (by decide +kernel) ?_
  cases drop <;> decide +kernel

/-- C67 fails: a CHECK constraint that is not there any more is not removed. -/
theorem pg_removed_check_refuted : ∃ src dest, Versions b!"1" true src dest ∧
    ¬ Converges b!"1" true src dest := by
  let a := pets [] [{ uq b!"pet" b!"pet_check" [] with
    constraintType := b!"CHECK", checkExpr := b!"owner > vet" }] []
  let b := pets [] [] []
  refine ⟨a, b, versions_of (by decide +kernel) (by decide +kernel) (by decide +kernel)
    (by decide +kernel) (by decide +kernel) (by decide +kernel), ?_⟩
  exact not_reached (fun c _ => c b!"pet_check") [] (by decide +kernel)
    (a.schemas[0].tables[1], b.schemas[0].tables[1]) (by decide +kernel) (by decide +kernel)

/-- C67 fails: a column that is to be dropped stays if nothing else changes in its table. -/
theorem pg_dropped_column_refuted : ∃ src dest, Versions b!"1" true src dest ∧
    ¬ Converges b!"1" true src dest := by
  let a := pets [col b!"pet" b!"name" b!"TEXT"] [] []
  let b := pets [] [] []
  refine ⟨a, b, versions_of (by decide +kernel) (by decide +kernel) (by decide +kernel)
    (by decide +kernel) (by decide +kernel) (by decide +kernel), ?_⟩
  rintro ⟨sts, db', h1, h2, h3⟩
  have hr : readFiles a.currentSchema
      (fun f => (migration (fun _ => false) b!"1" a b true).1.lookup f)
      (sortAndFilter ((migration (fun _ => false) b!"1" a b true).1.map (·.1))) = some [] := by
    decide +kernel
  rw [hr] at h1
  injection h1 with h1
  subst h1
  have h2 : dbOf b!"shop" b!"C" a = db' := h2
  subst h2
  obtain ⟨u, h4, h5⟩ := h3.common (a.schemas[0].tables[1], b.schemas[0].tables[1]) (by decide +kernel)
  have h6 : u = tblOf b!"shop" b!"C" a.schemas[0].tables[1] := by
    have : (dbOf b!"shop" b!"C" a).table (b!"shop", b!"pet") =
        some (tblOf b!"shop" b!"C" a.schemas[0].tables[1]) := rfl
    exact Option.some.inj (h4.symm.trans this)
  subst h6
  rcases h5.col b!"name" with h | ⟨x, -, y, hy, -, -, h, -⟩
  · revert h; decide +kernel
  · revert y; decide +kernel

/-- C67 fails: a unique constraint that is added to a table is not deferrable afterwards. -/
theorem pg_deferrable_key_refuted (drop : Bool) : ∃ src dest, Versions b!"1" drop src dest ∧
    ¬ Converges b!"1" drop src dest := by
  let a := pets [] [] []
  let b := pets [] [{ uq b!"pet" b!"pet_key" b!"owner" with isDeferrable := true }] []
  refine ⟨a, b, versions_of (by decide +kernel) (by decide +kernel) (by decide +kernel)
    (by decide +kernel) (by decide +kernel) (by cases drop <;> decide +kernel), ?_⟩
  refine not_reached (fun c _ => c b!"pet_key")
    (plan ⟨[14], b!"shop", b!"C", fun _ => false⟩ (pgEvents a b drop)) (by cases drop <;> decide +kernel)
    (a.schemas[0].tables[1], b.schemas[0].tables[1]) (by decide +kernel) ?_
  cases drop <;> decide +kernel

/-- C38 fails: if a table loses its primary key and a column of it becomes nullable, and what is not
needed is not removed, then the primary key stays, and the server refuses DROP NOT NULL. -/
theorem pg_surplus_pkey_refuted : ∃ src dest, Versions b!"1" false src dest ∧
    ¬ Converges b!"1" false src dest := by
  let a := pets [{ col b!"pet" b!"id" b!"INT" true with isPrimaryKey := true }]
    [pk b!"pet" b!"pet_pkey" [b!"id"]] []
  let b := pets [col b!"pet" b!"id" b!"INT"] [] []
  refine ⟨a, b, versions_of (by decide +kernel) (by decide +kernel) (by decide +kernel)
    (by decide +kernel) (by decide +kernel) (by decide +kernel), ?_⟩
  refine not_accepted (st := .alter (some b!"shop", b!"pet") [.dropNotNull b!"id"]) (r := [])
    (by decide +kernel) ?_
  rintro ⟨⟨t, h1, -, h2⟩, -⟩
  have h3 : (dbOf b!"shop" b!"C" a).table (b!"shop", b!"pet") =
      some (tblOf b!"shop" b!"C" a.schemas[0].tables[1]) := rfl
  have h4 : t = tblOf b!"shop" b!"C" a.schemas[0].tables[1] := Option.some.inj (h1.symm.trans h3)
  subst h4
  exact h2 b!"pet_pkey" (conOf .postgres b!"shop" (pk b!"pet" b!"pet_pkey" [b!"id"])) [b!"id"] rfl
    (by decide +kernel) (by decide +kernel)

/-- C38 fails: the type of a column cannot be changed while a generated column is computed from it. -/
theorem pg_generated_type_refuted (drop : Bool) : ∃ src dest, Versions b!"1" drop src dest ∧
    ¬ Converges b!"1" drop src dest := by
  let twice : Column := { col b!"pet" b!"twice" b!"INT" with
    isGenerated := true, generatedExpr := b!"age * 2", generatedExprStored := true }
  let a := pets [col b!"pet" b!"age" b!"INT", twice] [] []
  let b := pets [col b!"pet" b!"age" b!"BIGINT", twice] [] []
  refine ⟨a, b, versions_of (by decide +kernel) (by decide +kernel) (by decide +kernel)
    (by decide +kernel) (by decide +kernel) (by cases drop <;> decide +kernel), ?_⟩
  refine not_accepted (st := .alter (some b!"shop", b!"pet") [.setType b!"age" [.word b!"bigint"] none])
    (r := []) (by cases drop <;> decide +kernel) ?_
  rintro ⟨⟨t, h1, -, h2⟩, -⟩
  have h3 : (dbOf b!"shop" b!"C" a).table (b!"shop", b!"pet") =
      some (tblOf b!"shop" b!"C" a.schemas[0].tables[1]) := rfl
  have h4 : t = tblOf b!"shop" b!"C" a.schemas[0].tables[1] := Option.some.inj (h1.symm.trans h3)
  subst h4
  have h5 := h2 b!"twice" (colOf .postgres b!"C" false twice) rfl
  have h6 : generatedFrom b!"age" (colOf .postgres b!"C" false twice) = true := by decide +kernel
  rw [h6] at h5
  cases h5

/-- C38 fails: a unique constraint that gets another name cannot be dropped while a foreign key
references its column. -/
theorem pg_renamed_key_refuted : ∃ src dest, Versions b!"1" true src dest ∧
    Comparable src.currentSchema src.defaultCollation (lowerThan src.versionNums [12]) true src dest ∧
    ¬ Converges b!"1" true src dest := by
  let f := fk b!"pet" b!"pet_fk" b!"owner" b!"person" b!"mail"
  let a := pets [] [f] [] [uq b!"person" b!"person_mail" b!"mail"]
  let b := pets [] [f] [] [uq b!"person" b!"mail_key" b!"mail"]
  refine ⟨a, b, versions_of (by decide +kernel) (by decide +kernel) (by decide +kernel)
    (by decide +kernel) (by decide +kernel) (by decide +kernel), by decide +kernel, ?_⟩
  have hr : ∃ r, plan ⟨[14], b!"shop", b!"C", fun _ => false⟩ (pgEvents a b true) =
      .alter (some b!"shop", b!"person") [.dropConstraint true b!"person_mail"] :: r :=
    ⟨(plan ⟨[14], b!"shop", b!"C", fun _ => false⟩ (pgEvents a b true)).tail, by decide +kernel⟩
  obtain ⟨r, hr⟩ := hr
  refine not_accepted (st := .alter (some b!"shop", b!"person") [.dropConstraint true b!"person_mail"])
    (r := r) (by rw [← hr]; decide +kernel) ?_
  rintro ⟨⟨t, h1, -, h2⟩, -⟩
  have h3 : (dbOf b!"shop" b!"C" a).table (b!"shop", b!"person") =
      some (tblOf b!"shop" b!"C" a.schemas[0].tables[0]) := rfl
  have h4 : t = tblOf b!"shop" b!"C" a.schemas[0].tables[0] := Option.some.inj (h1.symm.trans h3)
  subst h4
  refine h2 (conOf .postgres b!"shop" (uq b!"person" b!"person_mail" b!"mail")) [b!"mail"] rfl
    (Or.inr (by decide +kernel)) ?_
  obtain ⟨ref, hk, hr1, hr2⟩ : ∃ ref, (conOf .postgres b!"shop" f).kind = .foreign [b!"owner"] ref ∧
      key ref.table = (b!"shop", b!"person") ∧ ref.cols = [b!"mail"] := ⟨_, rfl, rfl, rfl⟩
  exact ⟨(b!"shop", b!"pet"), tblOf b!"shop" b!"C" a.schemas[0].tables[1], b!"pet_fk",
    conOf .postgres b!"shop" f, [b!"owner"], ref, rfl, rfl, hk, hr1, by rw [hr2]⟩

/-- C38 fails: an index that moves to another table is created before it is dropped, if the other table
comes first. -/
theorem pg_moved_index_refuted : ∃ src dest, Versions b!"1" true src dest ∧
    Comparable src.currentSchema src.defaultCollation (lowerThan src.versionNums [12]) true src dest ∧
    ¬ Converges b!"1" true src dest := by
  let a := pets [] [] [idx b!"pet" b!"mail_idx" [b!"owner"]]
  let b := pets [] [] [] [] [idx b!"person" b!"mail_idx" [b!"mail"]]
  refine ⟨a, b, versions_of (by decide +kernel) (by decide +kernel) (by decide +kernel)
    (by decide +kernel) (by decide +kernel) (by decide +kernel), by decide +kernel, ?_⟩
  let x : Idx :=
    { unique := false, kind := none, name := b!"mail_idx", concurrently := true,
      table := some (some b!"shop", b!"person"), method := none, cols := [.column b!"mail" false],
      incl := [], pred := [] }
  refine not_accepted (st := .base (.createIndex x))
    (r := [.dropIndex (some b!"shop", b!"mail_idx")]) (by decide +kernel) ?_
  rintro ⟨n, t, h1, -, h3, -⟩
  have h1 : some (some b!"shop", b!"person") = some n := h1
  injection h1 with h1
  subst h1
  exact h3 (Or.inr ⟨b!"pet", tblOf b!"shop" b!"C" a.schemas[0].tables[1], rfl,
    Or.inl ⟨idxOf .postgres b!"shop" false true (idx b!"pet" b!"mail_idx" [b!"owner"]), rfl⟩⟩)

end Pets

end PgSpec
