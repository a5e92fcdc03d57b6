import Verif.Props.ScriptOrder
import Verif.Props.ScriptRoutinesSample
import Verif.Model.Subset

/-!
# C116: databases that are read in the same order again, and some that are not
-/

namespace Sqddl.Scripts
open OwnSpec OrderSpec RoutineSpec

/-- names sorted by their bytes -/
def nameLe (a b : Str) : Prop := Subset.strLt b a = false

instance (a b : Str) : Decidable (nameLe a b) := inferInstanceAs (Decidable (_ = _))

instance keyLeDec (k l : List Str) : Decidable (keyLe nameLe k l) :=
  match k, l with
  | [], _ => .isTrue trivial
  | _ :: _, [] => .isFalse id
  | a :: k, b :: l =>
    have := keyLeDec k l
    inferInstanceAs (Decidable (nameLe a b ∧ (nameLe b a → keyLe nameLe k l)))

/-! ## Tables -/

/-- two tables -/
def orderMy : MyTables :=
  { tables := [(b!"app", b!"film", b!"BASE TABLE", []), (b!"app", b!"actor", b!"BASE TABLE", b!"who")]
    statistics := [], constraints := [], routines := [], parameters := [] }

/-- the same, stored the other way round -/
def orderMy' : MyTables := { orderMy with tables := orderMy.tables.reverse }

example : SameMy orderMy orderMy' ∧ (orderMy.tables.map fun t => (t.1, t.2.1)).Nodup ∧
    Apart nameLe tableOrder (myTables {} orderMy) ∧ myTables {} orderMy ≠ myTables {} orderMy' ∧
    Answers nameLe tableOrder (myTables {} orderMy) [(b!"app", b!"actor", b!"who"), (b!"app", b!"film", [])] ∧
    Answers nameLe tableOrder (myTables {} orderMy') [(b!"app", b!"actor", b!"who"), (b!"app", b!"film", [])] := by
  refine ⟨⟨(List.reverse_perm _).symm⟩, by decide, by unfold Apart; decide, by decide, ⟨by decide, by decide⟩,
    by decide, by decide⟩

example : Apart nameLe msTableOrder (msTables Go.lowerC {} [⟨b!"dbo", b!"film", b!"U"⟩, ⟨b!"dbo", b!"actor", b!"U"⟩]) ∧
    Answers nameLe msTableOrder (msTables Go.lowerC {} [⟨b!"dbo", b!"film", b!"U"⟩, ⟨b!"dbo", b!"actor", b!"U"⟩])
      [(b!"dbo", b!"actor"), (b!"dbo", b!"film")] := by
  refine ⟨by unfold Apart; decide, by decide, by decide⟩

/-- two tables of SQLite -/
def orderLite : LiteTables :=
  { rows := [⟨b!"table", b!"film", b!"CREATE TABLE film"⟩, ⟨b!"index", b!"film", b!"CREATE INDEX i ON film"⟩,
      ⟨b!"table", b!"actor", b!"CREATE TABLE actor"⟩]
    tableList := [(b!"main", b!"film", b!"table"), (b!"main", b!"actor", b!"table")]
    columns := fun _ => [] }

example : ((orderLite.rows.filter fun m => m.type == b!"table").map (·.tblName)).Nodup ∧
    SameLite orderLite { orderLite with rows := orderLite.rows.reverse } ∧
    Apart nameLe liteTableOrder (liteTables false {} orderLite) ∧
    Answers nameLe liteTableOrder (liteTables false {} orderLite) [b!"actor", b!"film"] := by
  refine ⟨by decide, ⟨(List.reverse_perm _).symm, .refl _⟩, by unfold Apart; decide, by decide, by decide⟩

/-- two tables of Postgres -/
def orderPg : PgTables :=
  { namespaces := [⟨1, b!"public"⟩]
    classes := [⟨10, 1, b!"film", 'r'⟩, ⟨11, 1, b!"actor", 'r'⟩]
    descriptions := [⟨11, 1259, 0, b!"who"⟩]
    indexes := [], constraints := [] }

example : ((pgTables {} orderPg).map fun r => (r.1, r.2.1)).Nodup ∧
    SamePg orderPg { orderPg with classes := orderPg.classes.reverse } ∧ Apart nameLe tableOrder (pgTables {} orderPg) ∧
    Answers nameLe tableOrder (pgTables {} orderPg) [(b!"public", b!"actor", b!"who"), (b!"public", b!"film", [])] := by
  refine ⟨by decide, ⟨.refl _, (List.reverse_perm _).symm, .refl _⟩, by unfold Apart; decide, by decide, by decide⟩

/-! ## Triggers and extensions -/

/-- two triggers -/
def orderTriggers : List MyTriggerRow :=
  [⟨b!"app", b!"film", b!"stamp", b!"SET @a = 1", b!"BEFORE", b!"INSERT"⟩,
   ⟨b!"app", b!"film", b!"count", b!"SET @a = 2", b!"AFTER", b!"INSERT"⟩]

example : (orderTriggers.map fun g => (g.schema, g.name)).Nodup ∧
    Apart nameLe triggerOrder (myTriggers {} orderTriggers) ∧
    Answers nameLe triggerOrder (myTriggers {} orderTriggers) (myTriggers {} orderTriggers.reverse) := by
  refine ⟨by decide, by unfold Apart; decide, by decide, by decide⟩

/-- two triggers of SQLite -/
def orderLiteTriggers : List LiteObject :=
  [⟨b!"trigger", b!"film", b!"stamp", b!"CREATE TRIGGER"⟩, ⟨b!"table", b!"film", b!"film", b!"CREATE TABLE"⟩,
   ⟨b!"trigger", b!"film", b!"count", b!"CREATE TRIGGER"⟩]

example : (orderLiteTriggers.map fun m => (m.type, m.name)).Nodup ∧
    Apart nameLe triggerOrder (liteTriggers {} orderLiteTriggers) ∧
    Answers nameLe triggerOrder (liteTriggers {} orderLiteTriggers) (liteTriggers {} orderLiteTriggers.reverse) := by
  refine ⟨by decide, by unfold Apart; decide, by decide, by decide⟩

/-! ## Routines and extensions of Postgres -/

/-- two extensions, two functions of different names -/
def orderRoutines : PgRoutines :=
  { samplePgRoutines with
    procs := [⟨12, 1, b!"clean", 'p'⟩, ⟨10, 1, b!"area", 'f'⟩]
    extensions := [⟨50, b!"pg_trgm"⟩, ⟨51, b!"citext"⟩] }

/-- the same, stored the other way round -/
def orderRoutines' : PgRoutines :=
  { orderRoutines with procs := orderRoutines.procs.reverse, extensions := orderRoutines.extensions.reverse }

theorem orderRoutines_same : SameRoutines orderRoutines orderRoutines' :=
  ⟨.refl _, (List.reverse_perm _).symm, .refl _, (List.reverse_perm _).symm, .refl _, rfl, rfl, rfl⟩

example : SameRoutines orderRoutines orderRoutines' ∧ (orderRoutines.extensions.map (·.name)).Nodup ∧
    Apart nameLe extensionOrder (pgExtensions [] [] orderRoutines) ∧
    Answers nameLe extensionOrder (pgExtensions [] [] orderRoutines) [b!"citext", b!"pg_trgm"] := by
  refine ⟨orderRoutines_same, by decide, by unfold Apart; decide, by decide, by decide⟩

example : ∃ xs, pgRoutines {} orderRoutines = some xs ∧ (xs.map fun x => (x.routineSchema, x.routineName)).Nodup ∧
    Apart nameLe pgRoutineOrder xs ∧ Answers nameLe pgRoutineOrder xs xs.reverse := by
  refine ⟨_, rfl, by decide, by unfold Apart; decide, by decide, by decide⟩

/-- rows that agree in what they are sorted by may come in either order -/
theorem answers_tie {α} (le : Str → Str → Prop) (h : ∀ n, le n n) (key : α → List Str) (x y : α) (e : key x = key y) :
    Answers le key [x, y] [x, y] ∧ Answers le key [x, y] [y, x] := by
  have hr : ∀ k : List Str, keyLe le k k := by
    intro k
    induction k with
    | nil => trivial
    | cons a k ih => exact ⟨h a, fun _ => ih⟩
  refine ⟨⟨.refl _, ?_⟩, .swap .., ?_⟩
  · exact List.pairwise_pair.mpr (e ▸ hr _)
  · exact List.pairwise_pair.mpr (e ▸ hr _)

/-- the names and arguments of the routines of a catalog -/
def overloads (r : Introspect.Res Catalog) : List (Str × Str) :=
  match r with
  | .ok c => c.schemas.flatMap fun s => s.routines.map fun x => (x.routineName, x.identityArguments)
  | _ => []

/-- a server that answers with these routines -/
def orderServer (xs : List Routine) : Introspect.Server :=
  { version := some b!"14.5", routines := some { rows := xs.map fun x => some { row := x } } }

/-- C116: two functions of Postgres with one name may come in either order, whatever the collation, and so do
they in the catalog. -/
theorem pg_overload_refuted : ∃ c : PgRoutines, PgRoutineValid c ∧ ∃ xs, pgRoutines {} c = some xs ∧
    ∃ a b, (∀ le : Str → Str → Prop, (∀ n, le n n) → Answers le pgRoutineOrder xs a ∧ Answers le pgRoutineOrder xs b) ∧
      overloads (Introspect.writeCatalog (fun _ => false) .postgres [] (orderServer a) {}) =
        [(b!"area", b!"integer"), (b!"area", b!"integer, integer")] ∧
      overloads (Introspect.writeCatalog (fun _ => false) .postgres [] (orderServer b) {}) =
        [(b!"area", b!"integer, integer"), (b!"area", b!"integer")] := by
  let c : PgRoutines :=
    { samplePgRoutines with procs := [⟨10, 1, b!"area", 'f'⟩, ⟨11, 1, b!"area", 'f'⟩], descriptions := [] }
  let x := pgRoutineRow c ⟨1, b!"public"⟩ ⟨10, 1, b!"area", 'f'⟩ none
  let y := pgRoutineRow c ⟨1, b!"public"⟩ ⟨11, 1, b!"area", 'f'⟩ none
  exact ⟨c, ⟨by decide, by decide, by decide, by decide, by decide, by decide⟩, [x, y], by rfl, [x, y], [y, x],
    fun le h => answers_tie le h pgRoutineOrder x y rfl, by rfl, by rfl⟩

/-! ## Foreign keys of SQLite -/

/-- C116: two foreign keys of SQLite from the same columns may come in either order. -/
theorem sqlite_foreign_order_refuted : ∃ c : LiteInfo, ∃ x y, x ≠ y ∧ liteForeign {} c = [x, y] ∧
    ∀ le : Str → Str → Prop, (∀ n, le n n) →
      Answers le liteForeignOrder (liteForeign {} c) [x, y] ∧ Answers le liteForeignOrder (liteForeign {} c) [y, x] := by
  let c : LiteInfo :=
    { rows := [⟨b!"table", b!"item", b!"CREATE TABLE item"⟩]
      info := fun _ => []
      indexes := fun _ => []
      columns := fun _ => []
      fkeys := fun _ => [⟨0, 0, b!"book", b!"id", some b!"id", b!"NO ACTION", b!"NO ACTION"⟩,
        ⟨1, 0, b!"film", b!"id", some b!"id", b!"NO ACTION", b!"NO ACTION"⟩] }
  refine ⟨c, (⟨b!"item", 0, b!"book", b!"NO ACTION", b!"NO ACTION"⟩, [b!"id"], [b!"id"]),
    (⟨b!"item", 1, b!"film", b!"NO ACTION", b!"NO ACTION"⟩, [b!"id"], [b!"id"]), by decide, by rfl, fun le h => ?_⟩
  have e : liteForeign {} c = [(⟨b!"item", 0, b!"book", b!"NO ACTION", b!"NO ACTION"⟩, [b!"id"], [b!"id"]),
    (⟨b!"item", 1, b!"film", b!"NO ACTION", b!"NO ACTION"⟩, [b!"id"], [b!"id"])] := by rfl
  rw [e]
  exact answers_tie le h liteForeignOrder _ _ rfl

end Sqddl.Scripts
