import Verif.Model.History

/-!
# Several `sqddl migrate` at the same time

/repo/ddl/migrate_cmd.go:207-328: a command reads the history once, before it runs anything, and takes
no lock.  The model is a machine whose steps are the read of the history and the transactions of the
commands (449-574 `run`: the scripts of a batch and their rows in the history), in any order.  The
single command is Model/Migrate.lean; here a batch is one step, which has all its effects or none, and
a command ends at its first failure.  Repeatable migrations are left out.
-/

namespace Sqddl.MigrateParallel

/-- The commands: the files each of them was given, and how it cuts its queue into batches
(/repo/ddl/migrate_cmd.go:303-326). -/
structure Setup where
  files : Nat → List Str
  batches : Nat → List Str → List (List Str)

/-- Where a command is. -/
inductive Pc
  | start
  | todo (batches : List (List Str))
  | failed
deriving DecidableEq, Repr

/-- The files recorded as applied, the scripts that took effect (with the command that ran them), and
the commands. -/
structure State where
  hist : List Str
  log : List (Nat × Str) := []
  pcs : Nat → Pc := fun _ => .start

/-- A step of command `i`: it reads the history, or a batch of it is committed (`true`) or fails. -/
inductive Event
  | read (i : Nat)
  | batch (i : Nat) (ok : Bool)
deriving DecidableEq, Repr

/-- A function with another value at one place. -/
def put {α : Type} (f : Nat → α) (i : Nat) (x : α) : Nat → α := fun j => if j = i then x else f j

/-- One step of the machine.  The read is /repo/ddl/migrate_cmd.go:212-255 with the decision of
280-283; a committed batch is 449-574. -/
def step (u : Setup) (s : State) : Event → State
  | .read i =>
    match s.pcs i with
    | .start =>
      { s with pcs := put s.pcs i (.todo (u.batches i ((u.files i).filter fun f => !s.hist.contains f))) }
    | _ => s
  | .batch i ok =>
    match s.pcs i with
    | .todo (b :: bs) =>
      if ok then
        { hist := s.hist ++ b, log := s.log ++ b.map fun f => (i, f), pcs := put s.pcs i (.todo bs) }
      else { s with pcs := put s.pcs i .failed }
    | _ => s

/-- After the steps. -/
def run (u : Setup) (s : State) (es : List Event) : State := es.foldl (step u) s

end Sqddl.MigrateParallel
