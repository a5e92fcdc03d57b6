import Verif.Spec.Sql

/-!
# A tokenizer for SQL

Independent of the model: white space and comments separate tokens; a token is a word, a quoted
identifier, a string literal or a single punctuation character.
-/

namespace SqlSpec

/-- The tokens of SQL text. -/
inductive Tok
  /-- letters, digits and underscores: a keyword, an unquoted identifier or a number -/
  | word (s : Str)
  /-- a quoted identifier, with the name it denotes -/
  | quoted (s : Str)
  /-- a string literal, with its value -/
  | str (s : Str)
  /-- any other character -/
  | punct (c : Char)
deriving DecidableEq, Repr

/-- The characters that open and close a quoted identifier. -/
def openQ : Dialect → Char
  | .mysql => '`'
  | .sqlserver => '['
  | _ => '"'

/-- See `openQ`. -/
def closeQ : Dialect → Char
  | .mysql => '`'
  | .sqlserver => ']'
  | _ => '"'

/-- The text after the end of a block comment. -/
def skipBlock : Str → Option Str
  | [] => none
  | [_] => none
  | c :: d :: r => if c = '*' ∧ d = '/' then some r else skipBlock (d :: r)

/-- Reads one token, or white space or a comment (no token). -/
def lexOne (d : Dialect) (c : Char) (r : Str) : Option (Option Tok × Str) :=
  if Go.isSpace c then some (none, r)
  else if c = openQ d then (readQuoted (closeQ d) r).map fun (v, t) => (some (.quoted v), t)
  else if c = '\'' then (readString d r).map fun (v, t) => (some (.str v), t)
  else if wordChar c then
    some (some (.word (c :: r.takeWhile wordChar)), r.dropWhile wordChar)
  else if c = '-' ∧ r.head? = some '-' then some (none, r.dropWhile (· != '\n'))
  else if c = '/' ∧ r.head? = some '*' then (skipBlock r.tail).map fun t => (none, t)
  else some (some (.punct c), r)

/-- The tokens of a text; the number bounds the number of steps. -/
def lexN (d : Dialect) : Nat → Str → Option (List Tok)
  | _, [] => some []
  | 0, _ :: _ => none
  | n + 1, c :: r =>
    match lexOne d c r with
    | none => none
    | some (some t, rest) => (lexN d n rest).map (t :: ·)
    | some (none, rest) => lexN d n rest

/-- The tokens of a text; `none` if a quoted token or a comment is not closed. -/
def lex (d : Dialect) (s : Str) : Option (List Tok) := lexN d s.length s

/-- The object name denoted by a token. -/
def nameOf (d : Dialect) (kw : List Str) : Tok → Option Str
  | .quoted s => some s
  | .word w => if (w.head?.any Go.isDigit) || kw.contains (Go.toLower w) then none
      else some (foldName d w)
  | _ => none

/-- A name that is read back as itself (C18): no inner pair of quotes, and on Postgres not one of
the pseudo table names. -/
def PlainName (d : Dialect) (s : Str) : Prop :=
  ¬ HasInnerPair (closeQ d) s ∧
  (d = .postgres → s ∉ [b!"EXCLUDED", b!"INSERTED", b!"DELETED", b!"NEW", b!"OLD"])

/-- A keyword token, compared without regard to case. -/
def isKw (k : Str) : Tok → Bool
  | .word w => Go.toLower w == Go.toLower k
  | _ => false

/-- The statements of a list of tokens, each without its closing semicolon.  Tokens after the last
semicolon are a statement without semicolon. -/
def statements : List Tok → List (List Tok)
  | [] => []
  | t :: r =>
    if t = .punct ';' then [] :: statements r
    else match statements r with
      | [] => [[t]]
      | s :: rest => (t :: s) :: rest

end SqlSpec
