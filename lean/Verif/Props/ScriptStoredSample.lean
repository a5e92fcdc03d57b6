import Verif.Props.ScriptStored
import Verif.Props.ScriptObjectsSample

/-!
# C115: routines of MySQL and SQL Server that are reported, and some that are not
-/

namespace Sqddl.Scripts
open OwnSpec StoredSpec Introspect

/-! ## MySQL -/

/-- a function and a procedure with two parameters -/
def sampleStored : List MyStored :=
  [⟨b!"app", b!"area", b!"FUNCTION", some b!"int", some b!"RETURN w * h", b!"of a room", b!"SQL", b!"YES", b!"NO SQL",
      b!"DEFINER"⟩,
   ⟨b!"app", b!"pay", b!"PROCEDURE", none, some b!"BEGIN\r\nEND", [], b!"SQL", b!"NO", b!"CONTAINS SQL", b!"INVOKER"⟩]

/-- their parameters, not in order -/
def sampleParams : List MyParam :=
  [⟨b!"app", b!"area", b!"FUNCTION", 2, some b!"IN", some b!"h", b!"int"⟩,
   ⟨b!"app", b!"area", b!"FUNCTION", 0, none, none, b!"int"⟩,
   ⟨b!"app", b!"area", b!"FUNCTION", 1, some b!"IN", some b!"w", b!"int"⟩,
   ⟨b!"app", b!"pay", b!"PROCEDURE", 1, some b!"IN", some b!"amount", b!"decimal(9,2)"⟩,
   ⟨b!"app", b!"pay", b!"PROCEDURE", 2, some b!"OUT", some b!"id", b!"int"⟩]

theorem sampleStored_valid : MyStoredValid sampleStored sampleParams := by
  refine ⟨by decide, by decide, by decide, by decide, by decide, ?_⟩
  intro p hp h
  simp only [sampleParams, List.mem_cons, List.not_mem_nil, or_false] at hp
  rcases hp with rfl | rfl | rfl | rfl | rfl
  · exact ⟨⟨_, rfl⟩, _, rfl⟩
  · exact absurd rfl h
  all_goals exact ⟨⟨_, rfl⟩, _, rfl⟩

/-- what is read of a routine -/
def readStored (r : Res (List Routine)) : List (Str × Str × Str × List Str) :=
  match r with
  | .ok xs => xs.map fun x => (x.routineName, x.routineType, x.sql, x.attrs.map (·.2))
  | _ => []

example : MyStoredValid sampleStored sampleParams ∧ (sampleStored.map fun r => (r.schema, r.name)).Nodup ∧
    (∀ r ∈ sampleStored, MyStoredAsked {} r → ∃ p ∈ sampleParams, Parameter r p) ∧
    (∀ r ∈ sampleStored, MyStoredAsked {} r → ∃ d, r.definition = some d) ∧
    (∀ r ∈ sampleStored, MyStoredAsked {} r) := by
  refine ⟨sampleStored_valid, by decide, fun r hr _ => ?_, fun r hr _ => ?_, ?_⟩
  · have : ∀ r ∈ sampleStored, ∃ p ∈ sampleParams, Parameter r p := by unfold Parameter; decide
    exact this r hr
  · simp only [sampleStored, List.mem_cons, List.not_mem_nil, or_false] at hr
    rcases hr with rfl | rfl
    all_goals exact ⟨_, rfl⟩
  · unfold MyStoredAsked Wanted MyOwn
    decide

/-- The same, computed. -/
example : readStored (getRoutines .mysql { routines := some { rows := myStored {} sampleStored sampleParams } }) =
    [(b!"area", b!"FUNCTION", b!"RETURN w * h", [b!"int", b!"w int|h int", b!"SQL", b!"true", b!"NO SQL", b!"DEFINER"]),
     (b!"pay", b!"PROCEDURE", b!"BEGIN\nEND",
       [[], b!"IN amount decimal(9,2)|OUT id int", b!"SQL", b!"false", b!"CONTAINS SQL", b!"INVOKER"])] := by rfl

/-- a function without parameters -/
def sampleToday : MyStored :=
  ⟨b!"app", b!"today", b!"FUNCTION", some b!"date", some b!"RETURN CURRENT_DATE", [], b!"SQL", b!"NO", b!"NO SQL",
    b!"DEFINER"⟩

/-- the row of its result -/
def sampleTodayResult : MyParam := ⟨b!"app", b!"today", b!"FUNCTION", 0, none, none, b!"date"⟩

theorem sampleToday_valid : MyStoredValid [sampleToday] [sampleTodayResult] :=
  ⟨by decide, by decide, by decide, by decide, by decide, fun p hp h => by
    rw [List.mem_singleton] at hp; subst hp; exact absurd rfl h⟩

example : getRoutines .mysql { routines := some { rows := myStored {} [sampleToday] [sampleTodayResult] } } = .err :=
  mysql_function_refuted (r := sampleToday) (.inl rfl) (.inl rfl) sampleToday_valid (.head _)
    (by unfold MyStoredAsked Wanted MyOwn; decide) ⟨_, .head _, rfl, rfl⟩ (by decide)

/-- a procedure with the name of a function -/
def sampleSameName : List MyStored :=
  [⟨b!"app", b!"pay", b!"FUNCTION", some b!"int", some b!"RETURN n", [], b!"SQL", b!"YES", b!"NO SQL", b!"DEFINER"⟩,
   ⟨b!"app", b!"pay", b!"PROCEDURE", none, some b!"BEGIN END", [], b!"SQL", b!"NO", b!"CONTAINS SQL", b!"INVOKER"⟩]

/-- their parameters -/
def sampleSameParams : List MyParam :=
  [⟨b!"app", b!"pay", b!"FUNCTION", 0, none, none, b!"int"⟩,
   ⟨b!"app", b!"pay", b!"FUNCTION", 1, some b!"IN", some b!"n", b!"int"⟩,
   ⟨b!"app", b!"pay", b!"PROCEDURE", 2, some b!"OUT", some b!"id", b!"bigint"⟩,
   ⟨b!"app", b!"pay", b!"PROCEDURE", 1, some b!"IN", some b!"amount", b!"bigint"⟩]

theorem sampleSame_valid : MyStoredValid sampleSameName sampleSameParams := by
  refine ⟨by decide, by decide, by decide, by decide, by decide, ?_⟩
  intro p hp h
  simp only [sampleSameParams, List.mem_cons, List.not_mem_nil, or_false] at hp
  rcases hp with rfl | rfl | rfl | rfl
  · exact absurd rfl h
  all_goals exact ⟨⟨_, rfl⟩, _, rfl⟩

/-- the routines of a catalog -/
def storedIn (c : Catalog) : List (Str × Str × List (Str × Str)) :=
  c.schemas.flatMap fun s => s.routines.map fun x => (x.routineName, x.routineType, x.attrs)

/-- C115: if a function and a procedure of MySQL have the same name, then both are read with the parameters
of both, mixed, and only the second is kept. -/
theorem mysql_same_routine_refuted : ∃ routines params, MyStoredValid routines params ∧ routines.length = 2 ∧
    (∀ r ∈ routines, MyStoredAsked {} r ∧ (∃ p ∈ params, Parameter r p) ∧ r.definition ≠ none) ∧
    (myStored {} routines params).map (fun x => x.map fun x => (x.row.routineType, x.parameters)) =
      [some (b!"FUNCTION", b!"n int|IN amount bigint|OUT id bigint"),
       some (b!"PROCEDURE", b!"n int|IN amount bigint|OUT id bigint")] ∧
    ∃ c, Introspect.writeCatalog (fun _ => false) .mysql []
        { version := some b!"8.0.30", routines := some { rows := myStored {} routines params } } {} = .ok c ∧
      (storedIn c).map (fun x => (x.1, x.2.1)) = [(b!"pay", b!"PROCEDURE")] := by
  refine ⟨sampleSameName, sampleSameParams, sampleSame_valid, rfl, ?_, by rfl, _, rfl, by rfl⟩
  unfold MyStoredAsked Wanted MyOwn Parameter
  decide

/-! ## SQL Server -/

/-- a procedure, a function, a view, and a procedure of the server -/
def sampleMsStored : List MsTrigObject :=
  [⟨1, b!"dbo", b!"pay", b!"P", 0, some (some b!"CREATE PROCEDURE pay AS\r\nRETURN")⟩,
   ⟨2, b!"dbo", b!"area", b!"FN", 0, some (some b!"CREATE FUNCTION area")⟩,
   ⟨3, b!"dbo", b!"rooms", b!"V", 0, some (some b!"CREATE VIEW rooms")⟩,
   ⟨4, b!"dbo", b!"sp_helpdiagrams", b!"P", 0, some none⟩]

example : (sampleMsStored.map fun o => (o.schema, o.name)).Nodup ∧
    (∀ o ∈ sampleMsStored, MsStoredAsked (fun o => Longer Go.lowerC b!"sp" o.name) {} o → ∃ d, o.module = some (some d)) ∧
    readStored (getRoutines .sqlserver { routines := some { rows := msStored Go.lowerC {} sampleMsStored } }) =
      [(b!"pay", b!"PROCEDURE", b!"CREATE PROCEDURE pay AS\nRETURN", []),
       (b!"area", b!"FUNCTION", b!"CREATE FUNCTION area", [])] := by
  refine ⟨by decide, ?_, by rfl⟩
  intro o ho ha
  simp only [sampleMsStored, List.mem_cons, List.not_mem_nil, or_false] at ho
  rcases ho with rfl | rfl | rfl | rfl
  · exact ⟨_, rfl⟩
  · exact ⟨_, rfl⟩
  · exact ⟨_, rfl⟩
  · rcases ha.2.1 with h | h
    · cases h
    · exact absurd (by unfold Longer; decide) h

/-- an encrypted procedure -/
def sampleSecret : MsTrigObject := ⟨5, b!"dbo", b!"secret", b!"P", 0, some none⟩

example : getRoutines .sqlserver
    { routines := some { rows := msStored Go.lowerC {} (sampleSecret :: sampleMsStored) } } = .err :=
  sqlserver_encrypted_routine_refuted (shipped := fun o => Longer Go.lowerC b!"sp" o.name)
    (o := sampleSecret) (.inl rfl) (.inl rfl) (.head _) Iff.rfl
    (by unfold MsStoredAsked Wanted Longer; decide) rfl

end Sqddl.Scripts
