import Verif.Spec.Sql

/-!
# Specifications for argument lists, brackets, names, column types and versions

Nothing here refers to the model.
-/

namespace DdlSpec

/-- Text of SQL arguments.  `ArgText ok inside s`: the text `s` is well nested, i.e. a sequence of
plain characters, complete string literals and bracketed texts; a comma may occur only inside of
brackets or string literals (`inside` tells whether we are inside of brackets).  String literals
that are inside of brackets have a value that satisfies `ok`. -/
inductive ArgText (ok : Str → Prop) : Bool → Str → Prop
  | nil (b) : ArgText ok b []
  | comma (s) : ArgText ok true s → ArgText ok true (',' :: s)
  | char (b x s) : x ∉ [',', '\'', '(', ')', '[', ']'] → ArgText ok b s → ArgText ok b (x :: s)
  | str (b t v s) : SqlSpec.readQuoted '\'' t = some (v, s) → (b = true → ok v) →
      ArgText ok b s → ArgText ok b ('\'' :: t)
  | paren (b a s) : ArgText ok true a → ArgText ok b s → ArgText ok b ('(' :: a ++ ')' :: s)
  | array (b a s) : ArgText ok true a → ArgText ok b s → ArgText ok b ('[' :: a ++ ']' :: s)

/-- One argument: well-nested text without a comma outside of brackets and strings. -/
def Arg (s : Str) : Prop := ArgText (fun _ => True) false s

/-- One argument in which no string literal inside of brackets contains a bracket. -/
def SimpleArg (s : Str) : Prop := ArgText (fun v => ∀ c ∈ v, c ∉ ['(', ')', '[', ']']) false s

/-- Text with balanced parentheses. -/
inductive Balanced : Str → Prop
  | nil : Balanced []
  | char (x s) : x ∉ ['(', ')'] → Balanced s → Balanced (x :: s)
  | paren (a s) : Balanced a → Balanced s → Balanced ('(' :: a ++ ')' :: s)

/-- One parenthesised expression: the first parenthesis is closed by the last one. -/
def Enclosed (s : Str) : Prop := ∃ a, s = '(' :: a ++ [')'] ∧ Balanced a

/-- Depth of parentheses after reading a text; `none` once a parenthesis is closed that was not
opened. -/
def depth : Nat → Str → Option Nat
  | n, [] => some n
  | n, c :: s =>
    if c = '(' then depth (n + 1) s
    else if c = ')' then (if n = 0 then none else depth (n - 1) s)
    else depth n s

/-- Reading bytes as UTF-8: the number of continuation bytes that must follow; `none` once a byte
is out of place.  (Overlong forms and surrogates are not looked at.) -/
def utf8From : Nat → Str → Option Nat
  | n, [] => some n
  | 0, c :: s =>
    if c.toNat < 0x80 then utf8From 0 s
    else if c.toNat < 0xC0 then none
    else if c.toNat < 0xE0 then utf8From 1 s
    else if c.toNat < 0xF0 then utf8From 2 s
    else if c.toNat < 0xF8 then utf8From 3 s
    else none
  | n + 1, c :: s => if 0x80 ≤ c.toNat ∧ c.toNat < 0xC0 then utf8From n s else none

/-- The bytes are valid UTF-8. -/
def Utf8 (s : Str) : Prop := utf8From 0 s = some 0

instance (s : Str) : Decidable (Utf8 s) := by unfold Utf8; infer_instance

/-- Names of one and the same column type according to the reference manuals: alias and name. -/
def aliases : Dialect → List (Str × Str)
  | .postgres =>
    [(b!"integer", b!"int"), (b!"int4", b!"int"), (b!"serial", b!"int"), (b!"serial4", b!"int"),
     (b!"int8", b!"bigint"), (b!"bigserial", b!"bigint"), (b!"serial8", b!"bigint"),
     (b!"int2", b!"smallint"), (b!"smallserial", b!"smallint"), (b!"serial2", b!"smallint"),
     (b!"decimal", b!"numeric"), (b!"float4", b!"real"), (b!"float8", b!"double precision"),
     (b!"character varying", b!"varchar"), (b!"character", b!"char"),
     (b!"timestamp without time zone", b!"timestamp"), (b!"timestamp with time zone", b!"timestamptz"),
     (b!"time without time zone", b!"time"), (b!"time with time zone", b!"timetz"),
     (b!"bit varying", b!"varbit"), (b!"bool", b!"boolean")]
  | .mysql =>
    [(b!"integer", b!"int"), (b!"dec", b!"numeric"), (b!"decimal", b!"numeric"),
     (b!"bool", b!"tinyint"), (b!"boolean", b!"tinyint")]
  | .sqlserver =>
    [(b!"binary varying", b!"varbinary"), (b!"integer", b!"int"),
     (b!"national character varying", b!"nvarchar"), (b!"character varying", b!"varchar"),
     (b!"character", b!"char"), (b!"dec", b!"numeric"), (b!"decimal", b!"numeric")]
  | _ => []

/-- Two texts are the same up to the case of ASCII letters. -/
def SameUpToCase (s t : Str) : Prop := s.map Go.lowerC = t.map Go.lowerC

/-- A type name with case and blanks ignored. -/
def squeeze (s : Str) : Str := Go.toLower (s.filter (· ≠ ' '))

/-- The name of a type with aliases replaced, case and blanks ignored. -/
def canonical (d : Dialect) (s : Str) : Str :=
  match (aliases d).find? fun (a, _) => squeeze a == squeeze s with
  | some (_, c) => squeeze c
  | none => squeeze s

/-- What a type name (without arguments) denotes: the canonical name and whether it is an array
(Postgres) or an unsigned number (MySQL). -/
def typeMeaning (d : Dialect) (s : Str) : Str × Bool :=
  match d with
  | .postgres =>
    if Go.hasSuffix s b!"[]" then (canonical d (s.take (s.length - 2)), true)
    else (canonical d s, false)
  | .mysql =>
    if Go.hasSuffix (Go.toUpper s) b!" UNSIGNED" then (canonical d (s.take (s.length - 9)), true)
    else if Go.hasSuffix (Go.toUpper s) b!" SIGNED" then (canonical d (s.take (s.length - 7)), false)
    else (canonical d s, false)
  | d => (canonical d s, false)

/-- A column type as users write it: a name, possibly with arguments in brackets behind it.
`TypeText s name`: the type `s` has this name. -/
inductive TypeText : Str → Str → Prop
  | plain (name : Str) : ')' ∉ name → TypeText name name
  | args (name x : Str) : '(' ∉ name → TypeText (name ++ '(' :: (x ++ [')'])) name

/-- The names of the current time in a dialect. -/
def nowNames : Dialect → List Str
  | .sqlite => [b!"CURRENT_TIMESTAMP", b!"DATETIME()", b!"DATETIME('NOW')"]
  | .postgres => [b!"CURRENT_TIMESTAMP", b!"NOW()"]
  | .mysql => [b!"CURRENT_TIMESTAMP", b!"NOW()"]
  | .sqlserver => [b!"CURRENT_TIMESTAMP", b!"GETDATE()"]
  | _ => [b!"CURRENT_TIMESTAMP"]

/-- The spellings of a default that mean the same. -/
def SameDefault (d : Dialect) (s t : Str) : Prop :=
  s = t ∨
  (Go.toUpper s ∈ [b!"1", b!"TRUE", b!"'1'"] ∧ Go.toUpper t ∈ [b!"1", b!"TRUE", b!"'1'"]) ∨
  (Go.toUpper s ∈ [b!"0", b!"FALSE", b!"'0'"] ∧ Go.toUpper t ∈ [b!"0", b!"FALSE", b!"'0'"]) ∨
  (Go.toUpper s = Go.toUpper t ∧ Go.toUpper s ∈ [b!"CURRENT_DATE", b!"CURRENT_TIME", b!"NULL"]) ∨
  (Go.toUpper s ∈ nowNames d ∧ Go.toUpper t ∈ nowNames d)

/-- `v` is lower than `w`: at the first position where they differ, `v` has the lower number. -/
def Lower (v w : List Int) : Prop :=
  ∃ common x y v' w', v = common ++ x :: v' ∧ w = common ++ y :: w' ∧ x < y

end DdlSpec
