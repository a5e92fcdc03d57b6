import Verif.Spec.Ddl

/-!
# Changes of column types

What the lengths and the precision of a type mean, and which changes of the type of a column keep
all values.  Nothing here refers to the model.
-/

namespace TypeSpec
open DdlSpec

instance (s t : Str) : Decidable (SameUpToCase s t) := by unfold SameUpToCase; infer_instance

/-- A number in decimal digits. -/
def digits (n : Nat) : Str := Nat.toDigits 10 n

/-- The arguments of a type in brackets. -/
def argsText : List Nat → Str
  | [] => []
  | n :: ns => '(' :: (digits n ++ (ns.flatMap fun m => ',' :: digits m) ++ [')'])

/-- The text is one of the names (in any case) with the arguments. -/
def Written (names : List Str) (args : List Nat) (s : Str) : Prop :=
  ∃ n ∈ names, SameUpToCase s (n ++ argsText args)

/-- The names of types that this file is about. -/
def varcharNames : Dialect → List Str
  | .postgres => [b!"varchar", b!"character varying"]
  | _ => [b!"varchar"]
/-- See `varcharNames`. -/
def numericNames : List Str := [b!"numeric", b!"decimal"]

/-- A string of this length can be stored in a VARCHAR with these arguments. -/
def VarcharFits : List Nat → Nat → Prop
  | n :: _, len => len ≤ n
  | [], _ => True

/-- A number with this many digits before and after the point can be stored in a NUMERIC with these
arguments without being rounded. -/
def NumericFits : List Nat → Nat × Nat → Prop
  | [], _ => True
  | [p], v => v.1 ≤ p ∧ v.2 = 0
  | p :: s :: _, v => v.1 + s ≤ p ∧ v.2 ≤ s

/-- Something that fits with the old arguments does not fit with the new ones. -/
def Narrows {α : Type} (fits : List Nat → α → Prop) (old new : List Nat) : Prop :=
  ∃ v, fits old v ∧ ¬ fits new v

/-- The number of digits after the point. -/
def scale : List Nat → Nat
  | _ :: s :: _ => s
  | _ => 0

/-- Numbers that a database accepts as arguments: far below 2⁶³. -/
def Small (args : List Nat) : Prop := args.length ≤ 2 ∧ ∀ n ∈ args, n < 2 ^ 63

/-- Changes of the type of a column that keep all values and need no rewriting of the table in
Postgres. -/
inductive PgSafe : Str → Str → Prop
  | same (s t : Str) : SameUpToCase s t → PgSafe s t
  | longer (s t : Str) (n m : Nat) : n ≤ m → m < 2 ^ 63 → Written (varcharNames .postgres) [n] s →
      Written (varcharNames .postgres) [m] t → PgSafe s t
  | unlimited (s t : Str) (xs : List Nat) : Small xs → Written (varcharNames .postgres) xs s →
      Written (varcharNames .postgres) [] t → PgSafe s t
  | varcharText (s t : Str) (xs : List Nat) : Small xs → Written (varcharNames .postgres) xs s →
      Written [b!"text"] [] t → PgSafe s t
  | textVarchar (s t : Str) : Written [b!"text"] [] s →
      Written (varcharNames .postgres) [] t → PgSafe s t
  | network (s t : Str) : Written [b!"cidr"] [] s → Written [b!"inet"] [] t → PgSafe s t
  | precision (s t : Str) (p q : Nat) (sc : List Nat) : p ≤ q → Small (q :: sc) →
      Written numericNames (p :: sc) s → Written numericNames (q :: sc) t → PgSafe s t
  | anyNumber (s t : Str) (xs : List Nat) : Small xs → Written numericNames xs s →
      Written numericNames [] t → PgSafe s t

/-- Changes of a VARCHAR that MySQL makes in place: the number of length bytes stays. -/
inductive MysqlSafe : Str → Str → Prop
  | same (s t : Str) : SameUpToCase s t → MysqlSafe s t
  | longer (s t : Str) (n m : Nat) : n ≤ m → m < 2 ^ 63 → (m ≤ 255 ∨ 255 < n) →
      Written (varcharNames .mysql) [n] s → Written (varcharNames .mysql) [m] t → MysqlSafe s t

/-- The changes to another type that are listed as safe for Postgres, by the names of the types. -/
def pgListed : List (Str × Str) :=
  [(b!"cidr", b!"inet"), (b!"varchar", b!"text"), (b!"text", b!"varchar")]

end TypeSpec
