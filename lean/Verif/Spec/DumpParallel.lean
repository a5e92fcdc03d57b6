import Verif.Model.DumpParallel

/-!
# What a dump into a directory should leave
-/

namespace DumpParallelSpec
open Go Sqddl.DumpParallel

/-- The file of a table: the header and the lines of all rows. -/
def whole (header : Str) (rows : List Str) : Str := header ++ rows.flatten

/-- Every table has a file of its own. -/
def DistinctFiles (u : Setup) : Prop :=
  ∀ i < u.tables, ∀ j < u.tables, u.name i = u.name j → i = j

/-- Before the dump: the files that happen to be there. -/
def Fresh (s : State) : Prop := ∀ i, s.pcs i = .start

/-- The dump succeeded: no goroutine returned an error. -/
def Succeeded (u : Setup) (s : State) : Prop := ∀ i < u.tables, s.pcs i = .done true

/-- The connection of a table did not break. -/
def Unbroken (i : Nat) (es : List Event) : Prop := Event.run i .broken ∉ es

/-- No one else changed the database. -/
def Alone (es : List Event) : Prop := ∀ db, Event.other db ∉ es

end DumpParallelSpec
