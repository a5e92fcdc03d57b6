import Verif.Spec.Lex

/-!
# Fragments of SQL

Independent of the model: text that can be put into a statement, such as the expression of a default.
-/

namespace SqlSpec

/-- No quote and no comment is open at the end of the text: a semicolon after it is a token. -/
def Fragment (d : Dialect) (s : Str) : Prop :=
  (lex d s).isSome = true ∧
  lex d (s ++ b!";") = (lex d s).map (· ++ [Tok.punct ';'])

instance (d : Dialect) (s : Str) : Decidable (Fragment d s) := by unfold Fragment; infer_instance

end SqlSpec
