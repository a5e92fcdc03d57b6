import Verif.Props.InsertText

/-!
# C103: examples, and where a batch insert does not do what was asked
-/

namespace Sqddl.BatchInsert
open SqlSpec InsertSpec Sqddl
open SubsetSpec (Row)

/-- A row of the table of the examples. -/
def personRow (id name note : String) : Row := fun c =>
  if c = b!"id" then some id.toList else if c = b!"Name" then some name.toList
  else if c = b!"note" then some note.toList else none

/-- Three rows in batches of two; `Name` must be quoted in some databases. -/
def people (d : Dialect) : BatchInsert := ⟨2, d, b!"app", b!"person", [b!"id", b!"Name"], [b!"id"], []⟩

def peopleTarget : Target := ⟨(some b!"app", b!"person"), [b!"id"], fun c => if c = b!"note" then some b!"new" else none⟩

def peopleRows : List (List (Option Str)) :=
  [[some b!"1", some b!"Ann"], [some b!"2", none], [some b!"3", some b!"Cy"]]

def peopleTable : List Row := [personRow "2" "Bob" "old", personRow "9" "Zoe" "old"]

/-- What is to be seen of a table. -/
def seen (cols : List Str) (o : Option (List Row)) : Option (List (List (Option Str))) :=
  o.map fun t => t.map fun r => cols.map r

def beq (a b : Str) : Bool := decide (a = b)

theorem people_writable (d : Dialect) (hd : d ∈ [Dialect.sqlite, .postgres, .mysql, .sqlserver]) :
    Writable (people d) peopleTarget peopleRows where
  schema := by revert d; decide +kernel
  table := by revert d; decide +kernel
  columns := by revert d; decide +kernel
  nodup := by revert d; decide +kernel
  fits := by
    refine ⟨by simp [people], ?_⟩
    show ∀ m, BatchSpec.maxParams d = some m → 2 * 2 ≤ m
    simp at hd
    rcases hd with rfl | rfl | rfl | rfl <;> intro m hm <;> cases hm <;> decide
  name := rfl
  rows := show ∀ vs ∈ peopleRows, vs.length = 2 by decide

theorem people_upserts (d : Dialect) (hd : d ∈ [Dialect.sqlite, .postgres, .mysql, .sqlserver]) :
    Upserts beq beq (people d) peopleTarget peopleRows peopleTable where
  dialect := by revert d; decide
  keys := by simp [people]
  sub := by simp [people]
  key := rfl
  sees := by
    show Sees beq [b!"id"] (peopleTable ++ peopleRows.map (rowOf peopleTarget.default [b!"id", b!"Name"]))
    unfold Sees
    decide +kernel
  once := fun _ => by
    show Keyed [b!"id"] (peopleRows.map (rowOf peopleTarget.default [b!"id", b!"Name"]))
    unfold Keyed
    decide +kernel
  apart := fun _ => ⟨fun s => by simp [beq], (show beq b!"tmp_" b!"person" = false by decide +kernel),
    (show beq b!"person" b!"tmp_" = false by decide +kernel)⟩
  identity := fun _ _ => ⟨b!"Name", by simp [people], by simp [people], by simp [people]⟩

/-- The hypotheses of `batchInsert_upserts_partial` hold for three rows, one of which is there. -/
example (d : Dialect) (hd : d ∈ [Dialect.sqlite, .postgres, .mysql, .sqlserver]) :
    Writable (people d) peopleTarget peopleRows ∧ Upserts beq beq (people d) peopleTarget peopleRows peopleTable ∧
    Keyed [b!"id"] peopleTable ∧ ((people d).exec (fun _ => true) true peopleRows).2 = .ok :=
  ⟨people_writable d hd, people_upserts d hd, by unfold Keyed; decide +kernel, by revert d; decide +kernel⟩

/-- What the statements do: the row that is there keeps its note, the new rows get the default. -/
example : ∀ d ∈ [Dialect.sqlite, .postgres, .mysql, .sqlserver],
    seen [b!"id", b!"Name", b!"note"] (runTexts beq beq d (keywords d) peopleTarget
      ((people d).sent ((people d).exec (fun _ => true) true peopleRows).1) peopleTable) =
    some [[some b!"2", none, some b!"old"], [some b!"9", some b!"Zoe", some b!"old"],
      [some b!"1", some b!"Ann", some b!"new"], [some b!"3", some b!"Cy", some b!"new"]] := by decide +kernel

/-- Some of the texts. -/
example :
    (((people .sqlserver).sent ((people .sqlserver).exec (fun _ => true) true (peopleRows.take 1)).1).map (·.1) =
      [b!"UPDATE app.person WITH (UPDLOCK, SERIALIZABLE) SET [Name] = tmp_.[Name] FROM app.person JOIN (VALUES (@p1, @p2)) AS tmp_ (id, [Name]) ON app.person.id = tmp_.id",
       b!"INSERT INTO app.person (id, [Name]) SELECT id, [Name] FROM (VALUES (@p1, @p2)) AS tmp_ (id, [Name]) WHERE NOT EXISTS (SELECT 1 FROM app.person WHERE app.person.id = tmp_.id)"]) ∧
    ((people .postgres).sent ((people .postgres).exec (fun _ => true) true (peopleRows.take 1)).1).map (·.1) =
      [b!"INSERT INTO app.person (id, \"Name\") VALUES ($1, $2) ON CONFLICT (id) DO UPDATE SET \"Name\" = EXCLUDED.\"Name\""] := by
  decide +kernel

/-- Without key columns the rows are added. -/
example : Writable { people .mysql with keyColumns := [] } peopleTarget (peopleRows.take 1) ∧
    ({ people .mysql with keyColumns := [] } : BatchInsert).keyColumns = [] ∧
    (({ people .mysql with keyColumns := [] } : BatchInsert).exec (fun _ => true) true (peopleRows.take 1)).2 = .ok ∧
    seen [b!"id", b!"Name"] (runTexts beq beq .mysql (keywords .mysql) peopleTarget
      (({ people .mysql with keyColumns := [] } : BatchInsert).sent
        (({ people .mysql with keyColumns := [] } : BatchInsert).exec (fun _ => true) true (peopleRows.take 1)).1)
        peopleTable) =
    some [[some b!"2", some b!"Bob"], [some b!"9", some b!"Zoe"], [some b!"1", some b!"Ann"]] :=
  have h := people_writable .mysql (by decide)
  ⟨⟨h.schema, h.table, h.columns, h.nodup, h.fits, h.name, by decide⟩, rfl, by decide +kernel, by decide +kernel⟩

/-! ## Where it does not -/

/-- A table of SQL Server whose name is that of the values. -/
def aliased : BatchInsert := ⟨0, .sqlserver, [], b!"tmp_", [b!"id"], [b!"id"], []⟩

def aliasedTarget : Target := ⟨(none, b!"tmp_"), [b!"id"], fun _ => none⟩

/-- C103.  The rule does not extend to a table with the name `tmp_` in SQL Server: once it has a row, the
condition compares the row with itself, so that new rows are not inserted although success is reported. -/
theorem batchInsert_alias_refuted :
    Writable aliased aliasedTarget [[some b!"2"]] ∧
    (aliased.exec (fun _ => true) true [[some b!"2"]]).2 = .ok ∧
    seen [b!"id"] (runTexts beq beq .sqlserver (keywords .sqlserver) aliasedTarget
      (aliased.sent (aliased.exec (fun _ => true) true [[some b!"2"]]).1) [personRow "1" "" ""]) = some [[some b!"1"]] ∧
    (BatchSpec.upsertAll aliased.replaced (byKey [b!"id"] [personRow "1" "" ""])
      (keyedRows [b!"id"] [rowOf (fun _ => none) [b!"id"] [some b!"2"]]) [some b!"2"]).isSome := by
  refine ⟨⟨by decide +kernel, by decide +kernel, by decide +kernel, by decide +kernel, ⟨by simp [aliased], ?_⟩, rfl,
    by decide⟩, by decide +kernel, by decide +kernel, by decide +kernel⟩
  intro m hm
  cases hm
  decide

/-- A table of SQL Server in which only the identity column is not in the key. -/
def counted : BatchInsert := ⟨0, .sqlserver, [], b!"log", [b!"code", b!"id"], [b!"code"], [b!"id"]⟩

/-- C103.  Nor to a table of SQL Server in which only identity columns are not in the key: the text of the
UPDATE sets nothing, which is no statement. -/
theorem batchInsert_identity_only_refuted :
    counted.sent (counted.batchCalls 1 [some b!"a", some b!"1"]) =
      [(b!"UPDATE log WITH (UPDLOCK, SERIALIZABLE) SET  FROM log JOIN (VALUES (@p1, @p2)) AS tmp_ (code, id) ON log.code = tmp_.code",
        [some b!"a", some b!"1"]),
       (b!"INSERT INTO log (code, id) SELECT code, id FROM (VALUES (@p1, @p2)) AS tmp_ (code, id) WHERE NOT EXISTS (SELECT 1 FROM log WHERE log.code = tmp_.code)",
        [some b!"a", some b!"1"])] ∧
    ∀ (same eqv : Str → Str → Bool) (tg : Target) (t : List Row),
      runTexts same eqv .sqlserver (keywords .sqlserver) tg
        (counted.sent (counted.batchCalls 1 [some b!"a", some b!"1"])) t = none := by
  have h1 : counted.sent (counted.batchCalls 1 [some b!"a", some b!"1"]) =
      [(b!"UPDATE log WITH (UPDLOCK, SERIALIZABLE) SET  FROM log JOIN (VALUES (@p1, @p2)) AS tmp_ (code, id) ON log.code = tmp_.code",
        [some b!"a", some b!"1"]),
       (b!"INSERT INTO log (code, id) SELECT code, id FROM (VALUES (@p1, @p2)) AS tmp_ (code, id) WHERE NOT EXISTS (SELECT 1 FROM log WHERE log.code = tmp_.code)",
        [some b!"a", some b!"1"])] := by decide +kernel
  refine ⟨h1, fun same eqv tg t => ?_⟩
  have h2 : stmtOf .sqlserver (keywords .sqlserver)
      b!"UPDATE log WITH (UPDLOCK, SERIALIZABLE) SET  FROM log JOIN (VALUES (@p1, @p2)) AS tmp_ (code, id) ON log.code = tmp_.code" =
      none := by decide +kernel
  rw [h1, runTexts, h2]
  rfl

end Sqddl.BatchInsert
