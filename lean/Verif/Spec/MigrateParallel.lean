import Verif.Model.MigrateParallel

/-!
# What several migrations at the same time should do
-/

namespace MigrateParallelSpec
open Sqddl Sqddl.MigrateParallel

/-- The batches of a command are its queue, in order, and no file is given twice. -/
def Proper (u : Setup) : Prop :=
  ∀ i, (u.files i).Nodup ∧ ∀ q, (u.batches i q).flatten = q

/-- Before the commands: nothing has been run by them. -/
def Fresh (s : State) : Prop := s.log = [] ∧ ∀ i, s.pcs i = .start

/-- How often a script took effect, or was recorded before. -/
def times (s : State) (f : Str) : Nat := (s.log.map Prod.snd).count f

/-- A command has nothing left to do. -/
def Idle : Pc → Prop
  | .todo (_ :: _) => False
  | _ => True

/-- No command reads the history while another one has work left. -/
def Apart (u : Setup) : State → List Event → Prop
  | _, [] => True
  | s, e :: es => (∀ i, e = .read i → ∀ j, j ≠ i → Idle (s.pcs j)) ∧ Apart u (step u s e) es

end MigrateParallelSpec
