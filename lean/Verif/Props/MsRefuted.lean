import Verif.Props.MsConvergesSample

/-!
# SQL Server migrations that do not reach their goal (C38, C67)

Conditions of `ms_plan_converges_partial` are needed: without them there are two versions of a database
such that the server refuses a statement of the migration between them, or such that the migration does
not lead to the goal.
-/

namespace MsSpec
open SqlSpec Sqddl DdlText DdlSpec Sqddl.Sqlserver
open EngineSpec (Key Tbl Db key)
open MsText (Act)
open CatalogSpec (liveColumns liveConstraints liveIndexes commonTables liveTables)

/-- The statements of the migration are accepted, and they turn the database into the goal of the
migration. -/
def Converges (N : Numbers) (drop : Bool) (src dest : Catalog) : Prop :=
  ∃ fk db, mssqlFkeys (mssqlEvents src dest drop) = some fk ∧
    Runs N (dbOf src.currentSchema src.defaultCollation src)
      (plan ⟨src.currentSchema, src.defaultCollation⟩ (mssqlEvents src dest drop) fk) db ∧
    Reached src.currentSchema src.defaultCollation drop src dest db

/-- Two versions of a database that exist. -/
structure Versions (drop : Bool) (a b : Catalog) : Prop where
  src : Described a
  dest : Described b
  srcOk : Consistent (dbOf a.currentSchema a.defaultCollation a)
  goalOk : Consistent (goalDb a.currentSchema a.defaultCollation drop a b)

theorem versions_of {drop : Bool} {a b : Catalog} (h1 : Described a) (h2 : Described b)
    (h5 : ConsistentCheck (PgSpec.namesOf a b) (dbOf a.currentSchema a.defaultCollation a))
    (h6 : ConsistentCheck (PgSpec.namesOf a b) (goalDb a.currentSchema a.defaultCollation drop a b)) :
    Versions drop a b :=
  ⟨h1, h2, consistent_of listed_src h5, consistent_of listed_goal h6⟩

theorem runs_end {N : Numbers} {db db' : Db} {sts : List MsText.Stmt} (h : Runs N db sts db') :
    db' = sts.foldl effect db := by
  induction sts generalizing db with
  | nil => exact h.symm
  | cons s r ih => exact ih h.2

theorem runs_mid {N : Numbers} {db db' : Db} {pre r : List MsText.Stmt} {st : MsText.Stmt}
    (h : Runs N db (pre ++ st :: r) db') : Accepts N (pre.foldl effect db) st := by
  induction pre generalizing db with
  | nil => exact h.1
  | cons s pre ih => exact ih h.2

section
variable {N : Numbers} {drop : Bool} {src dest : Catalog}

/-- The statements of the migration. -/
def statements (drop : Bool) (src dest : Catalog) : Option (List MsText.Stmt) :=
  (mssqlFkeys (mssqlEvents src dest drop)).map
    (plan ⟨src.currentSchema, src.defaultCollation⟩ (mssqlEvents src dest drop))

/-- A statement is refused. -/
theorem not_accepted (pre : List MsText.Stmt) {st : MsText.Stmt} (r : List MsText.Stmt)
    (hr : statements drop src dest = some (pre ++ st :: r))
    (hn : ¬ Accepts N (pre.foldl effect (dbOf src.currentSchema src.defaultCollation src)) st) :
    ¬ Converges N drop src dest := by
  rintro ⟨fk, db, h1, h2, -⟩
  unfold statements at hr
  rw [h1] at hr
  injection hr with hr
  rw [hr] at h2
  exact hn (runs_mid h2)

/-- The constraints and indexes of a table are not those of the goal. -/
theorem not_reached {β : Type} (obs : (Str → Option Con) → (Str → Option Idx) → β)
    (sts : List MsText.Stmt) (hr : statements drop src dest = some sts)
    (p : Table × Table) (hp : p ∈ commonTables src dest)
    (ho : ((sts.foldl effect (dbOf src.currentSchema src.defaultCollation src)).table
        (p.2.tableSchema, p.2.tableName)).map (fun u => obs u.con u.idx) ≠
      some (obs (goalTbl src.currentSchema src.defaultCollation drop p.1 p.2).con
        (goalTbl src.currentSchema src.defaultCollation drop p.1 p.2).idx)) :
    ¬ Converges N drop src dest := by
  rintro ⟨fk, db, h1, h2, h3⟩
  unfold statements at hr
  rw [h1] at hr
  injection hr with hr
  subst hr
  obtain ⟨u, h4, h5⟩ := h3.common p hp
  rw [← runs_end h2, h4, Option.map_some, h5.con, h5.idx] at ho
  exact ho rfl

/-- Something of a column is not what the second version says. -/
theorem not_reached_column {β : Type} (obs : Col → β) (v : β) (sts : List MsText.Stmt)
    (hr : statements drop src dest = some sts)
    (p : Table × Table) (hp : p ∈ commonTables src dest) (b : Column)
    (hu : ∀ b' ∈ liveColumns p.2, b'.columnName = b.columnName → b' = b)
    (hg : (goalTbl src.currentSchema src.defaultCollation drop p.1 p.2).col b.columnName =
      some (colOf .sqlserver src.defaultCollation false b))
    (hv : obs (colOf .sqlserver src.defaultCollation false b) = v)
    (hc : ∀ a c, ColumnReached src.defaultCollation a b c → obs c = v)
    (ho : ((sts.foldl effect (dbOf src.currentSchema src.defaultCollation src)).table
        (p.2.tableSchema, p.2.tableName)).bind (fun u => (u.col b.columnName).map obs) ≠ some v) :
    ¬ Converges N drop src dest := by
  rintro ⟨fk, db, h1, h2, h3⟩
  unfold statements at hr
  rw [h1] at hr
  injection hr with hr
  subst hr
  obtain ⟨u, h4, h5⟩ := h3.common p hp
  rw [← runs_end h2, h4, Option.bind_some] at ho
  rcases h5.col b.columnName with h | ⟨a, ha, b', hb', c, e1, e2, h, hr⟩
  · rw [h, hg, Option.map_some, hv] at ho
    exact ho rfl
  · have := hu b' hb' e2
    subst this
    rw [h, Option.map_some, hc a c hr] at ho
    exact ho rfl

end

namespace Pets
open Sqddl.Sqlserver.Shop (col pk fk idx)

/-- A database with a table `person`, and a table `pet` with the columns given, and other
constraints and indexes. -/
def pets (cols : List Column) (cons : List Constraint) (idxs : List Index)
    (personCons : List Constraint := []) (personIdxs : List Index := []) : Catalog :=
  { dialect := b!"sqlserver", currentSchema := b!"dbo", defaultCollation := b!"C"
    schemas := [{ schemaName := b!"dbo", tables := [
      { tableSchema := b!"dbo", tableName := b!"person"
        columns := [{ col b!"person" b!"id" b!"INT" true with isPrimaryKey := true },
          col b!"person" b!"mail" b!"INT"]
        constraints := pk b!"person" b!"person_pkey" [b!"id"] :: personCons
        indexes := personIdxs },
      { tableSchema := b!"dbo", tableName := b!"pet"
        columns := col b!"pet" b!"owner" b!"INT" :: col b!"pet" b!"vet" b!"INT" :: cols
        constraints := cons
        indexes := idxs }] }] }

/-- A unique constraint. -/
def uq (t n c : Str) : Constraint :=
  { tableSchema := b!"dbo", tableName := t, constraintName := n, constraintType := b!"UNIQUE",
    columns := [c] }

/-- C67 fails: a column that gets another type is not NOT NULL any more, because ALTER COLUMN does not
repeat NOT NULL. -/
theorem ms_not_null_lost_refuted (N : Numbers) (drop : Bool) : ∃ src dest, Versions drop src dest ∧
    ¬ Converges N drop src dest := by
  let a := pets [col b!"pet" b!"name" b!"NVARCHAR(50)" true] [] []
  let b := pets [col b!"pet" b!"name" b!"NVARCHAR(100)" true] [] []
  refine ⟨a, b, versions_of (by decide +kernel) (by decide +kernel) (by decide +kernel)
    (by cases drop <;> decide +kernel), ?_⟩
  refine not_reached_column (fun c => c.notNull) true ((statements drop a b).getD [])
    (by cases drop <;> decide +kernel)
    (a.schemas[0].tables[1], b.schemas[0].tables[1]) (by decide +kernel)
    (col b!"pet" b!"name" b!"NVARCHAR(100)" true)
    (by decide +kernel) (by cases drop <;> decide +kernel) (by decide +kernel)
    (fun _ _ h => h.notNull) ?_
  cases drop <;> decide +kernel

/-- C67 fails: a column that is to become NOT NULL stays as it is. -/
theorem ms_not_null_refuted (N : Numbers) (drop : Bool) : ∃ src dest, Versions drop src dest ∧
    ¬ Converges N drop src dest := by
  let a := pets [col b!"pet" b!"name" b!"NVARCHAR(50)"] [] []
  let b := pets [col b!"pet" b!"name" b!"NVARCHAR(50)" true] [] []
  refine ⟨a, b, versions_of (by decide +kernel) (by decide +kernel) (by decide +kernel)
    (by cases drop <;> decide +kernel), ?_⟩
  refine not_reached_column (fun c => c.notNull) true ((statements drop a b).getD [])
    (by cases drop <;> decide +kernel)
    (a.schemas[0].tables[1], b.schemas[0].tables[1]) (by decide +kernel)
    (col b!"pet" b!"name" b!"NVARCHAR(50)" true)
    (by decide +kernel) (by cases drop <;> decide +kernel) (by decide +kernel)
    (fun _ _ h => h.notNull) ?_
  cases drop <;> decide +kernel

/-- C67 fails: a column that is to get the default collation keeps its own one. -/
theorem ms_default_collation_refuted (N : Numbers) (drop : Bool) : ∃ src dest, Versions drop src dest ∧
    ¬ Converges N drop src dest := by
  let a := pets [{ col b!"pet" b!"name" b!"NVARCHAR(50)" with collationName := b!"D" }] [] []
  let b := pets [col b!"pet" b!"name" b!"NVARCHAR(50)"] [] []
  refine ⟨a, b, versions_of (by decide +kernel) (by decide +kernel) (by decide +kernel)
    (by cases drop <;> decide +kernel), ?_⟩
  refine not_reached_column (fun c => c.collation.getD (.word b!"C")) (.word b!"C") ((statements drop a b).getD [])
    (by cases drop <;> decide +kernel)
    (a.schemas[0].tables[1], b.schemas[0].tables[1]) (by decide +kernel)
    (col b!"pet" b!"name" b!"NVARCHAR(50)")
    (by decide +kernel) (by cases drop <;> decide +kernel) (by decide +kernel)
    (fun _ _ h => h.collation) ?_
  cases drop <;> decide +kernel

/-- C67 fails: a column that is to become an identity column stays as it is. -/
theorem ms_identity_refuted (N : Numbers) (drop : Bool) : ∃ src dest, Versions drop src dest ∧
    ¬ Converges N drop src dest := by
  let a := pets [col b!"pet" b!"id" b!"INT" true] [] []
  let b := pets [{ col b!"pet" b!"id" b!"INT" true with columnIdentity := b!"IDENTITY" }] [] []
  refine ⟨a, b, versions_of (by decide +kernel) (by decide +kernel) (by decide +kernel)
    (by cases drop <;> decide +kernel), ?_⟩
  refine not_reached_column (fun c => c.identity.isSome) true ((statements drop a b).getD [])
    (by cases drop <;> decide +kernel)
    (a.schemas[0].tables[1], b.schemas[0].tables[1]) (by decide +kernel)
    ({ col b!"pet" b!"id" b!"INT" true with columnIdentity := b!"IDENTITY" })
    (by decide +kernel) (by cases drop <;> decide +kernel) (by decide +kernel)
    (fun _ _ h => by rw [h.identity]; decide +kernel) ?_
  cases drop <;> decide +kernel

/-- C67 fails: a foreign key that changes its column under the same name is left as it is. -/
theorem ms_changed_fkey_refuted (N : Numbers) (drop : Bool) : ∃ src dest, Versions drop src dest ∧
    ¬ Converges N drop src dest := by
  let a := pets [] [fk b!"pet" b!"pet_fk" b!"owner" b!"person" b!"id"] []
  let b := pets [] [fk b!"pet" b!"pet_fk" b!"vet" b!"person" b!"id"] []
  refine ⟨a, b, versions_of (by decide +kernel) (by decide +kernel) (by decide +kernel)
    (by cases drop <;> decide +kernel), ?_⟩
  exact not_reached (fun c _ => c b!"pet_fk") ((statements drop a b).getD []) (by cases drop <;> decide +kernel)
    (a.schemas[0].tables[1], b.schemas[0].tables[1]) (by decide +kernel) (by cases drop <;> decide +kernel)

/-- C67 fails: an index that changes its columns under the same name is left as it is. -/
theorem ms_changed_index_refuted (N : Numbers) (drop : Bool) : ∃ src dest, Versions drop src dest ∧
    ¬ Converges N drop src dest := by
  let a := pets [] [] [idx b!"pet" b!"pet_idx" [b!"owner"]]
  let b := pets [] [] [idx b!"pet" b!"pet_idx" [b!"owner", b!"vet"]]
  refine ⟨a, b, versions_of (by decide +kernel) (by decide +kernel) (by decide +kernel)
    (by cases drop <;> decide +kernel), ?_⟩
  exact not_reached (fun _ i => i b!"pet_idx") ((statements drop a b).getD []) (by cases drop <;> decide +kernel)
    (a.schemas[0].tables[1], b.schemas[0].tables[1]) (by decide +kernel) (by cases drop <;> decide +kernel)

/-- C67 fails: a CHECK constraint is not added to a table that exists already. -/
theorem ms_added_check_refuted (N : Numbers) (drop : Bool) : ∃ src dest, Versions drop src dest ∧
    ¬ Converges N drop src dest := by
  let a := pets [] [] []
  let b := pets [] [{ uq b!"pet" b!"pet_check" [] with
    constraintType := b!"CHECK", columns := [], checkExpr := b!"owner > vet" }] []
  refine ⟨a, b, versions_of (by decide +kernel) (by decide +kernel) (by decide +kernel)
    (by cases drop <;> decide +kernel), ?_⟩
  exact not_reached (fun c _ => c b!"pet_check") ((statements drop a b).getD []) (by cases drop <;> decide +kernel)
    (a.schemas[0].tables[1], b.schemas[0].tables[1]) (by decide +kernel) (by cases drop <;> decide +kernel)

/-- C67 fails: a CHECK constraint that is not there any more is not removed. -/
theorem ms_removed_check_refuted (N : Numbers) : ∃ src dest, Versions true src dest ∧
    ¬ Converges N true src dest := by
  let a := pets [] [{ uq b!"pet" b!"pet_check" [] with
    constraintType := b!"CHECK", columns := [], checkExpr := b!"owner > vet" }] []
  let b := pets [] [] []
  refine ⟨a, b, versions_of (by decide +kernel) (by decide +kernel) (by decide +kernel)
    (by decide +kernel), ?_⟩
  exact not_reached (fun c _ => c b!"pet_check") ((statements true a b).getD []) (by decide +kernel)
    (a.schemas[0].tables[1], b.schemas[0].tables[1]) (by decide +kernel) (by decide +kernel)

/-- C67 fails: a column that is to be dropped stays if nothing else changes in its table. -/
theorem ms_dropped_column_refuted (N : Numbers) : ∃ src dest, Versions true src dest ∧
    ¬ Converges N true src dest := by
  let a := pets [col b!"pet" b!"name" b!"NVARCHAR(50)"] [] []
  let b := pets [] [] []
  refine ⟨a, b, versions_of (by decide +kernel) (by decide +kernel) (by decide +kernel)
    (by decide +kernel), ?_⟩
  rintro ⟨fk, db, h1, h2, h3⟩
  have hr : statements true a b = some [] := by decide +kernel
  unfold statements at hr
  rw [h1] at hr
  injection hr with hr
  have h2 : Runs N (dbOf b!"dbo" b!"C" a) (plan ⟨b!"dbo", b!"C"⟩ (mssqlEvents a b true) fk) db := h2
  have hr : plan ⟨b!"dbo", b!"C"⟩ (mssqlEvents a b true) fk = [] := hr
  rw [hr] at h2
  have h2 : dbOf b!"dbo" b!"C" a = db := h2
  subst h2
  obtain ⟨u, h4, h5⟩ := h3.common (a.schemas[0].tables[1], b.schemas[0].tables[1]) (by decide +kernel)
  have h6 : u = tblOf b!"dbo" b!"C" a.schemas[0].tables[1] := by
    have : (dbOf b!"dbo" b!"C" a).table (b!"dbo", b!"pet") =
        some (tblOf b!"dbo" b!"C" a.schemas[0].tables[1]) := rfl
    exact Option.some.inj (h4.symm.trans this)
  subst h6
  rcases h5.col b!"name" with h | ⟨x, -, y, hy, c, -, h, -, -⟩
  · revert h; decide +kernel
  · revert y; decide +kernel

/-- C38 fails: a column that has a default cannot be dropped; its default is not dropped first. -/
theorem ms_default_of_dropped_refuted (N : Numbers) : ∃ src dest, Versions true src dest ∧
    ¬ Converges N true src dest := by
  let a := pets [{ col b!"pet" b!"age" b!"INT" with columnDefault := b!"((1))" }] [] []
  let b := pets [col b!"pet" b!"name" b!"NVARCHAR(50)"] [] []
  refine ⟨a, b, versions_of (by decide +kernel) (by decide +kernel) (by decide +kernel)
    (by decide +kernel), ?_⟩
  have hr : ∃ r, statements true a b =
      some ([] ++ .alter (some b!"dbo", b!"pet") (.dropColumn b!"age") :: r) :=
    ⟨((statements true a b).getD []).tail, by decide +kernel⟩
  obtain ⟨r, hr⟩ := hr
  refine not_accepted [] r hr ?_
  rintro ⟨t, h1, ⟨c, h2, h3⟩, -⟩
  have e1 : (dbOf b!"dbo" b!"C" a).table (b!"dbo", b!"pet") =
      some (tblOf b!"dbo" b!"C" a.schemas[0].tables[1]) := rfl
  have e2 : t = tblOf b!"dbo" b!"C" a.schemas[0].tables[1] := Option.some.inj (h1.symm.trans e1)
  subst e2
  have e3 : ((tblOf b!"dbo" b!"C" a.schemas[0].tables[1]).col b!"age").map (·.default.isSome) =
      some true := by decide +kernel
  rw [h2, Option.map_some, h3] at e3
  cases e3

/-- C38 fails: the type of a column that has a default cannot be changed to another type; its default
is only dropped afterwards. -/
theorem ms_default_of_altered_refuted (N : Numbers) (drop : Bool) : ∃ src dest,
    Versions drop src dest ∧ ¬ Converges N drop src dest := by
  let a := pets [{ col b!"pet" b!"age" b!"INT" with columnDefault := b!"((1))" }] [] []
  let b := pets [{ col b!"pet" b!"age" b!"NVARCHAR(10)" with columnDefault := b!"'one'" }] [] []
  refine ⟨a, b, versions_of (by decide +kernel) (by decide +kernel) (by decide +kernel)
    (by cases drop <;> decide +kernel), ?_⟩
  have hr : ∃ ty co nn r, statements drop a b =
      some ([] ++ .alter (some b!"dbo", b!"pet") (.alterColumn b!"age" ty co nn) :: r) ∧
      ty.head? = some (.word b!"nvarchar") :=
    ⟨(colOf .sqlserver b!"C" false (col b!"pet" b!"age" b!"NVARCHAR(10)")).type, none, none,
      ((statements drop a b).getD []).tail, by cases drop <;> decide +kernel, by decide +kernel⟩
  obtain ⟨ty, co, nn, r, hr, ht⟩ := hr
  refine not_accepted [] r hr ?_
  rintro ⟨t, h1, c, h2, -, h3, -⟩
  have e1 : (dbOf b!"dbo" b!"C" a).table (b!"dbo", b!"pet") =
      some (tblOf b!"dbo" b!"C" a.schemas[0].tables[1]) := rfl
  have e2 : t = tblOf b!"dbo" b!"C" a.schemas[0].tables[1] := Option.some.inj (h1.symm.trans e1)
  subst e2
  have e3 : ((tblOf b!"dbo" b!"C" a.schemas[0].tables[1]).col b!"age").map
      (fun c => (c.default.isSome, c.type.head?)) = some (true, some (.word b!"int")) := by decide +kernel
  rw [h2, Option.map_some] at e3
  injection e3 with e3
  injection e3 with e4 e5
  have h4 := (h3 (by intro h; rw [h] at e4; cases e4)).1
  rw [e5, ht] at h4
  revert h4; decide +kernel

/-- C38 fails: an index whose columns both change is dropped twice. -/
theorem ms_index_of_two_refuted (N : Numbers) (drop : Bool) : ∃ src dest,
    Versions drop src dest ∧ ¬ Converges N drop src dest := by
  let x := idx b!"pet" b!"pet_idx" [b!"owner", b!"vet"]
  let a := pets [] [] [x]
  let b : Catalog := { a with schemas := [{ a.schemas[0] with tables := [a.schemas[0].tables[0],
    { a.schemas[0].tables[1] with columns := [col b!"pet" b!"owner" b!"BIGINT", col b!"pet" b!"vet" b!"BIGINT"] }] }] }
  refine ⟨a, b, versions_of (by decide +kernel) (by decide +kernel) (by decide +kernel)
    (by cases drop <;> decide +kernel), ?_⟩
  have hr : ∃ r, statements drop a b =
      some ([.dropIndex b!"pet_idx" (some b!"dbo", b!"pet")] ++
        .dropIndex b!"pet_idx" (some b!"dbo", b!"pet") :: r) :=
    ⟨((statements drop a b).getD []).tail.tail, by cases drop <;> decide +kernel⟩
  obtain ⟨r, hr⟩ := hr
  refine not_accepted _ r hr ?_
  rintro ⟨t, y, h1, h2, -⟩
  have e1 : ((dbOf b!"dbo" b!"C" a).table (b!"dbo", b!"pet")).isSome = true := by decide +kernel
  have e2 : ((([MsText.Stmt.dropIndex b!"pet_idx" (some b!"dbo", b!"pet")].foldl effect
      (dbOf b!"dbo" b!"C" a)).table (b!"dbo", b!"pet")).bind fun t => t.idx b!"pet_idx").isSome = false := by
    decide +kernel
  have h1 : ([MsText.Stmt.dropIndex b!"pet_idx" (some b!"dbo", b!"pet")].foldl effect
      (dbOf b!"dbo" b!"C" a)).table (b!"dbo", b!"pet") = some t := h1
  rw [h1, Option.bind_some, h2] at e2
  cases e2

/-- C38 fails: if a column of a system table has the same name as a column whose default changes, then
the block that drops the default may find the default of another column.  Here `name`, which is the
first column of sys.objects, is a column of `pet`, whose first column has a default too. -/
theorem ms_other_default_refuted (N : Numbers) (drop : Bool)
    (hN : N.other b!"name" (N.num (b!"dbo", b!"pet") b!"kind")) : ∃ src dest,
    Versions drop src dest ∧ ¬ Converges N drop src dest := by
  let k : Column := { col b!"pet" b!"kind" b!"INT" with columnDefault := b!"((1))" }
  let a := pets [k, { col b!"pet" b!"name" b!"NVARCHAR(50)" with columnDefault := b!"'x'" }] [] []
  let b := pets [k, { col b!"pet" b!"name" b!"NVARCHAR(50)" with columnDefault := b!"'y'" }] [] []
  refine ⟨a, b, versions_of (by decide +kernel) (by decide +kernel) (by decide +kernel)
    (by cases drop <;> decide +kernel), ?_⟩
  have hr : ∃ r, statements drop a b =
      some ([] ++ .dropDefault b!"dbo" b!"pet" b!"name" (some b!"dbo", b!"pet") :: r) :=
    ⟨((statements drop a b).getD []).tail, by cases drop <;> decide +kernel⟩
  obtain ⟨r, hr⟩ := hr
  refine not_accepted _ r hr ?_
  rintro ⟨-, h, -⟩
  have e1 : (dbOf b!"dbo" b!"C" a).table (b!"dbo", b!"pet") =
      some (tblOf b!"dbo" b!"C" a.schemas[0].tables[1]) := rfl
  have h2 := h b!"kind" ⟨⟨_, colOf .sqlserver b!"C" false k, e1, rfl, by decide +kernel⟩, Or.inl hN⟩
  revert h2; decide +kernel

/-- C38 fails: a unique constraint that gets another name cannot be dropped while a foreign key
references its column. -/
theorem ms_renamed_key_refuted (N : Numbers) : ∃ src dest, Versions true src dest ∧
    Comparable src.currentSchema src.defaultCollation true src dest ∧
    ¬ Converges N true src dest := by
  let f := fk b!"pet" b!"pet_fk" b!"owner" b!"person" b!"mail"
  let a := pets [] [f] [] [uq b!"person" b!"person_mail" b!"mail"]
  let b := pets [] [f] [] [uq b!"person" b!"mail_key" b!"mail"]
  refine ⟨a, b, versions_of (by decide +kernel) (by decide +kernel) (by decide +kernel)
    (by decide +kernel), by decide +kernel, ?_⟩
  have hr : ∃ r, statements true a b =
      some ([] ++ .alter (some b!"dbo", b!"person") (.dropConstraint b!"person_mail") :: r) :=
    ⟨((statements true a b).getD []).tail, by decide +kernel⟩
  obtain ⟨r, hr⟩ := hr
  refine not_accepted _ r hr ?_
  rintro ⟨t, h1, c, h2, h3⟩
  have e1 : (dbOf b!"dbo" b!"C" a).table (b!"dbo", b!"person") =
      some (tblOf b!"dbo" b!"C" a.schemas[0].tables[0]) := rfl
  have e2 : t = tblOf b!"dbo" b!"C" a.schemas[0].tables[0] := Option.some.inj (h1.symm.trans e1)
  subst e2
  have e3 : (tblOf b!"dbo" b!"C" a.schemas[0].tables[0]).con b!"person_mail" =
      some (conOf .sqlserver b!"dbo" (uq b!"person" b!"person_mail" b!"mail")) := rfl
  have e4 : c = conOf .sqlserver b!"dbo" (uq b!"person" b!"person_mail" b!"mail") :=
    Option.some.inj (h2.symm.trans e3)
  subst e4
  refine h3 [b!"mail"] (Or.inr (by decide +kernel)) ?_
  obtain ⟨ref, hk, hr1, hr2⟩ : ∃ ref, (conOf .sqlserver b!"dbo" f).kind = .foreign [b!"owner"] ref ∧
      key ref.table = (b!"dbo", b!"person") ∧ ref.cols = [b!"mail"] := ⟨_, rfl, rfl, rfl⟩
  exact ⟨(b!"dbo", b!"pet"), tblOf b!"dbo" b!"C" a.schemas[0].tables[1], b!"pet_fk",
    conOf .sqlserver b!"dbo" f, [b!"owner"], ref, rfl, rfl, hk, hr1, by rw [hr2]⟩

end Pets

end MsSpec
