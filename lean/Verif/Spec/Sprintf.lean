import Verif.Model.Sprintf
import Verif.Model.BatchInsert

/-!
# What it means to fill in the parameters of a query

A query is a sequence of pieces: characters, quoted text and parameters.
-/

namespace SprintfSpec
open Go Sqddl Sqddl.Sprintf

/-- A parameter: the next argument, the argument with a number (from 1), the argument with a name. -/
inductive Param
  | anon
  | ord (n : Nat)
  | named (s : Str)
deriving DecidableEq, Repr

/-- A piece of a query. -/
inductive Piece
  | plain (c : Char)
  /-- text in quotes; `q` is the opening quote -/
  | quoted (q : Char) (body : Str)
  /-- a parameter; `sigil` is its first character -/
  | param (sigil : Char) (p : Param)
deriving DecidableEq, Repr

/-- The closing quote. -/
def close (q : Char) : Char := if q = '[' then ']' else q

/-- Text with every closing quote doubled. -/
def doubled (q : Char) (s : Str) : Str := s.flatMap fun c => if c = q then [c, c] else [c]

/-- The quotes of a dialect: strings in single quotes, identifiers in double quotes, for MySQL also in
backquotes, for SQL Server also in brackets. -/
def quotes : Dialect → List Char
  | .mysql => ['\'', '"', '`']
  | .sqlserver => ['\'', '"', '[']
  | _ => ['\'', '"']

/-- The first characters of the parameters of a dialect. -/
def sigils : Dialect → List Char
  | .sqlite => ['?', '$', ':', '@']
  | .postgres => ['$']
  | .sqlserver => ['?', '@']
  | _ => ['?']

/-- The text of a parameter. -/
def paramText (d : Dialect) (sigil : Char) : Param → Str
  | .anon => [sigil]
  | .ord n => if d = .sqlserver then sigil :: 'p' :: itoa n else sigil :: itoa n
  | .named s => sigil :: s

/-- The text of a piece. -/
def Piece.text (d : Dialect) : Piece → Str
  | .plain c => [c]
  | .quoted q body => q :: (doubled (close q) body ++ [close q])
  | .param sigil p => paramText d sigil p

/-- The text of a query. -/
def text (d : Dialect) (ps : List Piece) : Str := ps.flatMap (·.text d)

/-- Letters, digits and underscores; `hi` says which runes outside of ASCII are letters or digits. -/
def nameChar (hi : Char → Bool) (c : Char) : Bool :=
  if c.toNat < 128 then c.isAlphanum || c = '_' else hi c

/-- A name of a parameter: letters, digits and underscores, not a number; for SQL Server also not `p`
with a number. -/
def IsName (d : Dialect) (hi : Char → Bool) (s : Str) : Prop :=
  s ≠ [] ∧ (∀ c ∈ s, nameChar hi c) ∧ ¬ s.all Char.isDigit ∧
    (d = .sqlserver → ∀ c ∈ ['p', 'P'], ∀ r, s = c :: r → ¬ r.all Char.isDigit)

/-- The parameters of a dialect. -/
def IsParam (d : Dialect) (hi : Char → Bool) (sigil : Char) : Param → Prop
  | .anon => sigil = '?' ∧ d ≠ .postgres
  | .ord n => n < 2 ^ 63 ∧
      match d with
      | .sqlite => sigil ∈ sigils .sqlite
      | .postgres => sigil = '$'
      | .sqlserver => sigil = '@'
      | _ => False
  | .named s => IsName d hi s ∧
      match d with
      | .sqlite => sigil ∈ sigils .sqlite
      | .sqlserver => sigil = '@'
      | _ => False

/-- A piece in a query of the dialect. -/
def IsPiece (d : Dialect) (hi : Char → Bool) : Piece → Prop
  | .plain c => c ∉ quotes d ∧ c ∉ sigils d
  | .quoted q _ => q ∈ quotes d
  | .param sigil p => IsParam d hi sigil p

/-- What may follow a piece: quoted text is not followed by its closing quote; a parameter is followed
by nothing or by a character that does not belong to its name and begins neither a quoted text nor
another parameter (a lone `?` is complete except for SQLite). -/
def Apart (d : Dialect) (hi : Char → Bool) : Piece → Str → Prop
  | .plain _, _ => True
  | .quoted q _, t => t.head? ≠ some (close q)
  | .param sigil _, t => (sigil = '?' ∧ d ≠ .sqlite) ∨
      ∀ c ∈ t.head?, nameChar hi c = false ∧ c ∉ quotes d ∧ c ∉ sigils d

/-- A query of the dialect. -/
def IsQuery (d : Dialect) (hi : Char → Bool) : List Piece → Prop
  | [] => True
  | p :: r => IsPiece d hi p ∧ Apart d hi p (text d r) ∧ IsQuery d hi r

/-- The literal of the argument a parameter stands for; `k` arguments were used by lone `?` before. -/
def value (args : List Arg) (k : Nat) : Param → Option Str
  | .anon => args[k]?.bind (·.literal)
  | .ord n => if n = 0 then none else args[n - 1]?.bind (·.literal)
  | .named s => (args.filter (·.name = some s)).getLast?.bind (·.literal)

/-- The query with literals for its parameters; `none` if one is missing. -/
def filled (d : Dialect) (args : List Arg) : Nat → List Piece → Option Str
  | _, [] => some []
  | k, .plain c :: r => (filled d args k r).map (c :: ·)
  | k, .quoted q b :: r => (filled d args k r).map ((Piece.quoted q b).text d ++ ·)
  | k, .param _ p :: r =>
    (value args k p).bind fun v =>
      (filled d args (if p = .anon then k + 1 else k) r).map (v ++ ·)

/-- The text that came out. -/
def textOf : Res → Option Str
  | .ok s => some s
  | _ => none

end SprintfSpec
