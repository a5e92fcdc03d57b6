import Verif.Model.ScriptStored
import Verif.Spec.ScriptRows

/-!
# Routines of MySQL and SQL Server as they were defined
-/

namespace Sqddl.Scripts.StoredSpec
open OwnSpec

/-- `t` is `s` with `\n` for every line break `\r\n`. -/
inductive SameLines : Str → Str → Prop
  | nil : SameLines [] []
  | windows {s t : Str} : SameLines s t → SameLines ('\r' :: '\n' :: s) ('\n' :: t)
  | other {c : Char} {s t : Str} : ¬ (c = '\r' ∧ b!"\n" <+: s) → SameLines s t → SameLines (c :: s) (c :: t)

/-! ## MySQL -/

/-- the row is a parameter of the routine, not the result of it -/
def Parameter (r : MyStored) (p : MyParam) : Prop :=
  p.schema = r.schema ∧ p.routine = r.name ∧ p.routineType = r.type ∧ p.number ≠ 0

/-- What MySQL guarantees for information_schema. -/
structure MyStoredValid (routines : List MyStored) (params : List MyParam) : Prop where
  kinds : ∀ r ∈ routines, r.type = b!"FUNCTION" ∨ r.type = b!"PROCEDURE"
  names : (routines.map fun r => (r.schema, r.name, r.type)).Nodup
  numbers : (params.map fun p => (p.schema, p.routine, p.routineType, p.number)).Nodup
  owners : ∀ p ∈ params, ∃ r ∈ routines, p.schema = r.schema ∧ p.routine = r.name ∧ p.routineType = r.type
  results : ∀ p ∈ params, p.number = 0 → p.name = none
  named : ∀ p ∈ params, p.number ≠ 0 → (∃ m, p.mode = some m) ∧ ∃ n, p.name = some n

/-- a parameter in words: those of procedures have a mode -/
def written (p : MyParam) : Str :=
  (if p.routineType = b!"PROCEDURE" then p.mode.getD [] ++ b!" " else []) ++ p.name.getD [] ++ b!" " ++ p.type

/-- the parameters of the routine in their order -/
def Parameters (params : List MyParam) (r : MyStored) (text : Str) : Prop :=
  ∃ ps : List MyParam, (∀ p, p ∈ ps ↔ p ∈ params ∧ Parameter r p) ∧
    ps.Pairwise (fun a b => a.number < b.number) ∧ text = Go.join b!"|" (ps.map written)

/-- the routine is asked for -/
def MyStoredAsked (f : Filter) (r : MyStored) : Prop :=
  ((f.system = true ∨ ¬ MyOwn r.schema) ∧ Wanted f.schemas f.excludeSchemas r.schema) ∧
    Wanted f.routines f.excludeRoutines r.name

/-- `x` is the routine `r` as it was defined. -/
structure MyStoredIs (params : List MyParam) (r : MyStored) (x : Routine) : Prop where
  schema : x.routineSchema = r.schema
  name : x.routineName = r.name
  type : x.routineType = r.type
  sql : ∃ d, r.definition = some d ∧ SameLines d x.sql
  comment : x.comment = r.comment
  result : (b!"returnType", r.result.getD []) ∈ x.attrs
  parameters : ∃ text, Parameters params r text ∧ (b!"parameters", text) ∈ x.attrs
  body : (b!"routineBody", r.body) ∈ x.attrs
  deterministic : (b!"isDeterministic", if r.deterministic = b!"YES" then b!"true" else b!"false") ∈ x.attrs
  access : (b!"sqlDataAccess", r.access) ∈ x.attrs
  security : (b!"securityType", r.security) ∈ x.attrs
  /-- nothing is said twice -/
  once : (x.attrs.map (·.1)).Nodup

/-! ## SQL Server -/

/-- the routine is asked for; `shipped` are those that the server brings along -/
def MsStoredAsked (shipped : MsTrigObject → Prop) (f : Filter) (o : MsTrigObject) : Prop :=
  (o.type = b!"P" ∨ o.type = b!"FN" ∨ o.type = b!"IF" ∨ o.type = b!"TF") ∧ (f.system = true ∨ ¬ shipped o) ∧
    Wanted f.schemas f.excludeSchemas o.schema ∧ Wanted f.routines f.excludeRoutines o.name

/-- `x` is the routine `o` as it was defined. -/
structure MsStoredIs (o : MsTrigObject) (x : Routine) : Prop where
  schema : x.routineSchema = o.schema
  name : x.routineName = o.name
  procedure : o.type = b!"P" → x.routineType = b!"PROCEDURE"
  function : o.type ≠ b!"P" → x.routineType = b!"FUNCTION"
  sql : ∃ d, o.module = some (some d) ∧ SameLines d x.sql

end Sqddl.Scripts.StoredSpec
