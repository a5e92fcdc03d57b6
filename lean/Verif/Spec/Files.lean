import Verif.Basic

/-! Specifications about migration files; nothing here refers to the model. -/

namespace FileSpec

/-- The text ends with `suf`. -/
def EndsWith (s suf : Str) : Prop := ∃ a, s = a ++ suf

/-- The last path element of `f` is `b`. -/
def IsNamed (f b : Str) : Prop := f = b ∨ EndsWith f ('/' :: b)

/-- The files that `migrate`, `ls` and `touch` are concerned with. -/
def IsMigration (f : Str) : Prop :=
  EndsWith f b!".sql" ∧ ¬ EndsWith f b!".undo.sql" ∧
  ¬ IsNamed f b!"schema.sql" ∧ ¬ IsNamed f b!"indexes.sql" ∧ ¬ IsNamed f b!"constraints.sql"

/-- Files in the directory `repeatable`. -/
def Repeatable (f : Str) : Prop := ∃ a, f = b!"repeatable/" ++ a

/-- The stretches of a text between newline characters. -/
def splitLF : Str → List Str
  | [] => [[]]
  | c :: r =>
    if c = '\n' then [] :: splitLF r
    else match splitLF r with
      | [] => [[c]]
      | l :: ls => (c :: l) :: ls

/-- A line without one carriage return at its end. -/
def dropCR (l : Str) : Str := if l.getLast? = some '\r' then l.dropLast else l

/-- The lines of a text, where a line may be ended by `\n` or by `\r\n`; what follows the last
newline is the last line, taken as it is. -/
def lines (s : Str) : List Str :=
  (splitLF s).dropLast.map dropCR ++ (splitLF s).getLast?.toList

end FileSpec
