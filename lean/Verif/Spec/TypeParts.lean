import Verif.Spec.Ddl

/-!
# What a column type with its arguments means
-/

namespace DdlSpec
open Go

/-- A column type as users write it.  `TypeParts s name x`: the type `s` has this name, and `x` is the
text of its arguments. -/
inductive TypeParts : Str → Str → Str → Prop
  | plain (name : Str) : ')' ∉ name → TypeParts name name []
  | args (name x : Str) : '(' ∉ name → TypeParts (name ++ '(' :: (x ++ [')'])) name x

/-- The first argument and the rest, case and surrounding blanks ignored. -/
def argTexts (x : Str) : Str × Str :=
  (toUpper (trimSpace (x.takeWhile (· ≠ ','))), toUpper (trimSpace ((x.dropWhile (· ≠ ',')).drop 1)))

/-- A type name of MySQL without a sign, case and blanks ignored. -/
def unsignedName (s : Str) : Str :=
  squeeze (if hasSuffix (toUpper s) b!" UNSIGNED" then s.take (s.length - 9)
    else if hasSuffix (toUpper s) b!" SIGNED" then s.take (s.length - 7) else s)

/-- What the arguments `x` of the type called `name` mean.  On MySQL the width of an integer means
nothing, except that `bool` is `tinyint(1)`. -/
def argMeaning (d : Dialect) (name x : Str) : Str × Str :=
  if d = .mysql then
    if unsignedName name ∈ [b!"integer", b!"int", b!"smallint", b!"mediumint", b!"bigint"] then ([], [])
    else if unsignedName name ∈ [b!"bool", b!"boolean"] then (b!"1", [])
    else if unsignedName name = b!"tinyint" then
      (if (argTexts x).1 = b!"1" then b!"1" else [], [])
    else argTexts x
  else argTexts x

/-- The types mean the same: their names and their arguments do. -/
def SameMeaning (d : Dialect) (s t : Str) : Prop :=
  ∀ n x m y, TypeParts s n x → TypeParts t m y → n.head?.any (fun c => !isSpace c) →
    m.head?.any (fun c => !isSpace c) →
    (d = .mysql → (¬ ∃ a b, toUpper s = a ++ b!"SIGNED SIGNED" ++ b) ∧
      ¬ ∃ a b, toUpper t = a ++ b!"SIGNED SIGNED" ++ b) →
    typeMeaning d (trimSpace n) = typeMeaning d (trimSpace m) ∧
    argMeaning d (trimSpace n) x = argMeaning d (trimSpace m) y

end DdlSpec
