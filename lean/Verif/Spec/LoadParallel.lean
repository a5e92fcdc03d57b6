import Verif.Model.LoadParallel

/-!
# What loading CSV files in parallel should do

Stated on what has been committed: the list of the statements that wrote, each with its file, its
number in the file and the session setting it was run under.
-/

namespace LoadParallelSpec
open Sqddl.LoadParallel

/-- The statements of one file, in their order. -/
def whole (size : Nat → Nat) (i : Nat) : List (Nat × Nat) := (List.range (size i)).map fun k => (i, k)

/-- The statements of a file that have been committed. -/
def committed {V : Type} (log : List (Write V)) (i : Nat) : List Nat :=
  (log.filter (·.file = i)).map Write.no

/-- Every file is there completely, once and in its order, or not at all. -/
def AllOrNothing {V : Type} (size : Nat → Nat) (log : List (Write V)) : Prop :=
  ∀ i, committed log i = List.range (size i) ∨ committed log i = []

/-- The files one after the other, as if none had been loaded at the same time as another. -/
def Serial {V : Type} (size : Nat → Nat) (order : List Nat) (log : List (Write V)) : Prop :=
  order.Nodup ∧ log.map (fun w => (w.file, w.no)) = order.flatMap (whole size)

/-- Everything was written under the given setting. -/
def WrittenUnder {V : Type} (want : V) (log : List (Write V)) : Prop := ∀ w ∈ log, w.value = want

/-- The load of the CSV files is over: every goroutine has returned. -/
def Over {V : Type} (files : Nat) (s : State V) : Prop := ∀ i < files, ∃ b, s.pcs i = .done b

/-- The load of the CSV files succeeded. -/
def Succeeded {V : Type} (files : Nat) (s : State V) : Prop := ∀ i < files, s.pcs i = .done true

/-- A commit whose answer was lost. -/
def AnswerLost (es : List Event) : Prop := ∃ i c, Event.run i c .lost ∈ es

/-- Nothing went wrong. -/
def Calm (es : List Event) : Prop := ∀ e ∈ es, ∃ i c, e = .run i c .ok

end LoadParallelSpec
