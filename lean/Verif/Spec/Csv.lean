import Verif.Basic

/-!
# What is kept by a CSV file
-/

namespace CsvSpec

/-- Line ends as Unix has them: a carriage return in front of a line feed is left out. -/
def lf : Str → Str
  | [] => []
  | '\r' :: '\n' :: s => '\n' :: lf s
  | c :: s => c :: lf s

/-- A record that is more than an empty line in a file. -/
def Visible (r : List Str) : Prop := r ≠ [] ∧ r ≠ [[]]

instance (r : List Str) : Decidable (Visible r) := inferInstanceAs (Decidable (_ ∧ _))

/-- Text without Windows line ends. -/
def UnixText (s : Str) : Prop := ∀ a b, s ≠ a ++ '\r' :: '\n' :: b

end CsvSpec
