import Verif.Basic

/-!
# Lexical rules of SQL used by the specifications

Nothing here refers to the model.  The rules are those of the reference manuals: in a quoted
token a doubled closing quote denotes one quote; MySQL string literals (default `sql_mode`)
also have backslash escapes; an unquoted identifier is a word.
-/

namespace SqlSpec

/-- Reads the inside of a quoted token whose closing quote is `q`, the opening quote already
consumed.  A doubled `q` stands for one `q`.  Result: value and remaining text; `none` if the
token is not closed. -/
def readQuoted (q : Char) : Str → Option (Str × Str)
  | [] => none
  | [c] => if c = q then some ([], []) else none
  | c :: d :: r =>
    if c = q then
      if d = q then (readQuoted q r).map fun (v, t) => (q :: v, t)
      else some ([], d :: r)
    else (readQuoted q (d :: r)).map fun (v, t) => (c :: v, t)

/-- Reads the inside of a MySQL string literal (default `sql_mode`): as `readQuoted '\''`, but a
backslash escapes the next character (`\n`, `\r`, `\t`, `\0`, `\b`, `\Z` denote control
characters, any other escaped character denotes itself). -/
def readMySQLString : Str → Option (Str × Str)
  | [] => none
  | [c] => if c = '\'' then some ([], []) else none
  | c :: d :: r =>
    if c = '\'' then
      if d = '\'' then (readMySQLString r).map fun (v, t) => ('\'' :: v, t)
      else some ([], d :: r)
    else if c = '\\' then
      let e := if d = 'n' then '\n' else if d = 'r' then '\r' else if d = 't' then '\t'
        else if d = '0' then '\x00' else if d = 'b' then '\x08' else if d = 'Z' then '\x1a' else d
      (readMySQLString r).map fun (v, t) => (e :: v, t)
    else (readMySQLString (d :: r)).map fun (v, t) => (c :: v, t)

/-- Reads the inside of a string literal of a dialect. -/
def readString : Dialect → Str → Option (Str × Str)
  | .mysql => readMySQLString
  | _ => readQuoted '\''

/-- The text contains two adjacent quotes that are followed by at least one more byte. -/
def HasInnerPair (q : Char) (s : Str) : Prop := ∃ a c b, s = a ++ q :: q :: c :: b

/-- Letters, digits and underscores: characters that continue an unquoted word. -/
def wordChar (c : Char) : Bool :=
  c == '_' || ('0' ≤ c && c ≤ '9') || ('a' ≤ c && c ≤ 'z') || ('A' ≤ c && c ≤ 'Z')

/-- How an unquoted word is turned into a name: Postgres folds to lower case, the other
dialects keep the spelling. -/
def foldName : Dialect → Str → Str
  | .postgres, s => Go.toLower s
  | _, s => s

/-- Reads one identifier token: a quoted token in the quotes of the dialect, or an unquoted word
that does not start with a digit and is not one of the reserved words `kw`.  Result: the name
denoted and the remaining text. -/
def readIdent (d : Dialect) (kw : List Str) : Str → Option (Str × Str)
  | [] => none
  | c :: r =>
    match d, c with
    | .mysql, '`' => readQuoted '`' r
    | .sqlserver, '[' => readQuoted ']' r
    | .sqlite, '"' | .postgres, '"' | .oracle, '"' | .other, '"' => readQuoted '"' r
    | _, _ =>
      let w := (c :: r).takeWhile wordChar
      if w = [] ∨ Go.isDigit c ∨ kw.contains (Go.toLower w) then none
      else some (foldName d w, (c :: r).dropWhile wordChar)

/-- A text that may follow an identifier token without changing how it is read. -/
def endsToken (d : Dialect) : Str → Prop
  | [] => True
  | c :: _ => wordChar c = false ∧
      c ≠ (match d with | .mysql => '`' | .sqlserver => ']' | _ => '"')

/-! ## String expressions: literals and `CHAR(n)`/`CHR(n)` calls, concatenated -/

/-- The decimal numbers 10 and 13 of the two newline characters. -/
def newlineOfCode : Str → Option Char
  | ['1', '0'] => some '\n'
  | ['1', '3'] => some '\r'
  | _ => none

/-- Reads `CHAR(nn)` (`CHR(nn)` on Postgres and Oracle). -/
def readCharFn (d : Dialect) (s : Str) : Option (Str × Str) :=
  let f := if d = .postgres ∨ d = .oracle then b!"CHR(" else b!"CHAR("
  if f.isPrefixOf s then
    let t := s.drop f.length
    match newlineOfCode (t.take 2), t.drop 2 with
    | some c, ')' :: r => some ([c], r)
    | _, _ => none
  else none

/-- Reads one operand: a string literal or a character function call. -/
def readTerm (d : Dialect) : Str → Option (Str × Str)
  | '\'' :: r => readString d r
  | s => readCharFn d s

/-- Reads operands separated by `sep` until the text `stop` remains; `fuel` bounds the number of
operands (the length of the text is always enough). -/
def readTerms (d : Dialect) (sep stop : Str) : Nat → Str → Option (List Str)
  | 0, _ => none
  | fuel + 1, s =>
    match readTerm d s with
    | none => none
    | some (v, r) =>
      if r = stop then some [v]
      else if sep.isPrefixOf r then
        (readTerms d sep stop fuel (r.drop sep.length)).map (v :: ·)
      else none

/-- The number of operands needed to write a text with a separate operand for each newline
character: its newline characters plus its maximal non-empty stretches without one. -/
def operandCount : Str → Nat
  | [] => 0
  | [_] => 1
  | c :: d :: r =>
    if c ≠ '\r' ∧ c ≠ '\n' ∧ d ≠ '\r' ∧ d ≠ '\n' then operandCount (d :: r)
    else 1 + operandCount (d :: r)

/-- Value of a string expression: `a || b || c`, or `CONCAT(a, b, c)` on MySQL and SQL Server.
SQL Server's `CONCAT` takes 2 to 254 arguments. -/
def evalString (d : Dialect) (s : Str) : Option Str :=
  match d with
  | .mysql | .sqlserver =>
    if b!"CONCAT(".isPrefixOf s then
      match readTerms d b!", " b!")" (s.length + 1) (s.drop 7) with
      | some vs =>
        if d = .sqlserver ∧ (vs.length < 2 ∨ 254 < vs.length) then none else some vs.flatten
      | none => none
    else
      match readTerm d s with
      | some (v, []) => some v
      | _ => none
  | _ => (readTerms d b!" || " [] (s.length + 1) s).map List.flatten

end SqlSpec
