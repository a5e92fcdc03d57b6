import Verif.Model.History
import Verif.Spec.Migrate

/-!
# Specifications about the history commands
-/

namespace HistorySpec
open FileSpec MigrateSpec Sqddl Sqddl.Migrate

/-! ## directories -/

/-- There is a file at this path (list of names) below a directory. -/
inductive FileAt : Entries → List Str → Prop
  | here (n : Str) (rest : Entries) : FileAt (.cons n .file rest) [n]
  | inside (n : Str) (es rest : Entries) (p : List Str) :
      FileAt es p → FileAt (.cons n (.dir es) rest) (n :: p)
  | later (n : Str) (x : Node) (rest : Entries) (p : List Str) :
      FileAt rest p → FileAt (.cons n x rest) p

/-- A path as text. -/
def pathText (p : List Str) : Str := Go.join b!"/" p

/-- The names in a directory. -/
def entryNames : Entries → List Str
  | .nil => []
  | .cons n _ rest => n :: entryNames rest

/-- The names of the files in a directory itself. -/
def rootFiles : Entries → List Str
  | .nil => []
  | .cons n .file rest => n :: rootFiles rest
  | .cons _ (.dir _) rest => rootFiles rest

/-- Names contain no slash and are not repeated within a directory. -/
def NamesOk : Entries → Prop
  | .nil => True
  | .cons n .file rest => '/' ∉ n ∧ n ∉ entryNames rest ∧ NamesOk rest
  | .cons n (.dir es) rest => '/' ∉ n ∧ n ∉ entryNames rest ∧ NamesOk es ∧ NamesOk rest

/-! ## the history -/

/-- Rows that say success have a start time. -/
def Started (h : History) : Prop :=
  ∀ f r, h f = some r → r.success = true → r.startedAt ≠ none

/-- The migrations among the names: those that are not repeatable, then those that are. -/
noncomputable def selected (names : List Str) : List Str :=
  open Classical in
  (names.filter fun f => decide (IsMigration f ∧ ¬ Repeatable f)) ++
  (names.filter fun f => decide (IsMigration f ∧ Repeatable f))

/-- The status a file should be shown with. -/
def HasStatus (env : Env) (h : History) (f : Str) : Status → Prop
  | .pending => h f = none ∨ (∃ r, h f = some r ∧ r.startedAt = none) ∨
      ∃ r c, h f = some r ∧ r.success = true ∧ Repeatable f ∧ env.files f = some c ∧
        env.sha (crlfToLf c) ≠ r.checksum
  | .failed => ∃ r, h f = some r ∧ r.startedAt ≠ none ∧ r.success = false
  | .applied => ∃ r, h f = some r ∧ r.startedAt ≠ none ∧ r.success = true ∧
      (Repeatable f → ∃ c, env.files f = some c ∧ env.sha (crlfToLf c) = r.checksum)
  | .missing => False

/-- Equal rows up to the start time. -/
def SameUpToTime (a b : Option Row) : Prop :=
  match a, b with
  | none, none => True
  | some r, some s => r.checksum = s.checksum ∧ r.success = s.success ∧
      (r.startedAt = none ↔ s.startedAt = none)
  | _, _ => False

end HistorySpec
