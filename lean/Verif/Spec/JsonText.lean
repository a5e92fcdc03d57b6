import Verif.Spec.Literal

/-!
# JSON text

A reader for JSON (RFC 8259) that knows nothing about the writer.  Numbers are integers.  Texts are
bytes; UTF-8 is written from RFC 3629.
-/

namespace JsonText
open Go

/-- A JSON value. -/
inductive Json
  | null
  | bool (b : Bool)
  | int (n : Int)
  | str (s : Str)
  | arr (xs : List Json)
  | obj (ms : List (Str × Json))
deriving Repr

/-! ## Characters -/

/-- A byte. -/
def byte (n : Nat) : Char := Char.ofNat n

/-- The bytes of a code point: RFC 3629, section 3. -/
def encode (n : Nat) : Str :=
  if n < 0x80 then [byte n]
  else if n < 0x800 then [byte (0xC0 + n / 0x40), byte (0x80 + n % 0x40)]
  else if n < 0x10000 then [byte (0xE0 + n / 0x1000), byte (0x80 + n / 0x40 % 0x40), byte (0x80 + n % 0x40)]
  else [byte (0xF0 + n / 0x40000), byte (0x80 + n / 0x1000 % 0x40), byte (0x80 + n / 0x40 % 0x40),
    byte (0x80 + n % 0x40)]

/-- A code point that is not a surrogate. -/
def Scalar (n : Nat) : Prop := n < 0xD800 ∨ (0xE000 ≤ n ∧ n < 0x110000)

/-- Text in UTF-8. -/
def Utf8 (s : Str) : Prop := ∃ cs : List Nat, (∀ n ∈ cs, Scalar n) ∧ cs.flatMap encode = s

/-! ## Tokens -/

/-- What is between the quotes of a string: bytes, and code units that are written as `\uXXXX`. -/
inductive Piece
  | byte (c : Char)
  | unit (n : Nat)
deriving DecidableEq, Repr

/-- The bytes of a code unit that stands alone. -/
def lone (n : Nat) : Str := if 0xD800 ≤ n ∧ n < 0xE000 then encode 0xFFFD else encode n

/-- The text; two code units can be a pair of surrogates. -/
def text : List Piece → Str
  | [] => []
  | .byte c :: r => c :: text r
  | .unit h :: .unit l :: r =>
    if (0xD800 ≤ h ∧ h < 0xDC00) ∧ 0xDC00 ≤ l ∧ l < 0xE000 then
      encode (0x10000 + (h - 0xD800) * 0x400 + (l - 0xDC00)) ++ text r
    else lone h ++ text (.unit l :: r)
  | .unit h :: r => lone h ++ text r

/-- Tokens. -/
inductive Tok
  | punct (c : Char)
  | str (s : Str)
  | word (w : Str)
deriving DecidableEq, Repr

/-- White space. -/
def space (c : Char) : Bool := [' ', '\t', '\n', '\r'].contains c

/-- Punctuation. -/
def punct (c : Char) : Bool := ['{', '}', '[', ']', ':', ','].contains c

/-- The characters of literals and numbers. -/
def wordChar (c : Char) : Bool := c.isAlphanum || c == '-'

/-- What a character stands for that follows a backslash. -/
def simple (c : Char) : Option Char :=
  [('"', '"'), ('\\', '\\'), ('/', '/'), ('b', byte 8), ('f', byte 12), ('n', '\n'), ('r', '\r'),
    ('t', '\t')].lookup c

/-- Where the reader is: between tokens, in a literal or number, in a string, after a backslash, or in
the digits of `\uXXXX`. -/
inductive St
  | out
  | word (w : Str)
  | str (ps : List Piece)
  | esc (ps : List Piece)
  | hex (ps : List Piece) (ds : List Nat)

/-- The tokens of a text. -/
def lex : St → Str → Option (List Tok)
  | .out, [] => some []
  | .word w, [] => some [.word w]
  | _, [] => none
  | .out, c :: s =>
    if space c then lex .out s
    else if punct c then (lex .out s).map (.punct c :: ·)
    else if c = '"' then lex (.str []) s
    else if wordChar c then lex (.word [c]) s
    else none
  | .word w, c :: s =>
    if wordChar c then lex (.word (w ++ [c])) s
    else if space c then (lex .out s).map (.word w :: ·)
    else if punct c then (lex .out s).map fun r => .word w :: .punct c :: r
    else none
  | .str ps, c :: s =>
    if c = '"' then (lex .out s).map (.str (text ps) :: ·)
    else if c = '\\' then lex (.esc ps) s
    else if c.toNat < 0x20 then none
    else lex (.str (ps ++ [.byte c])) s
  | .esc ps, c :: s =>
    if c = 'u' then lex (.hex ps []) s
    else (simple c).bind fun x => lex (.str (ps ++ [.byte x])) s
  | .hex ps ds, c :: s =>
    (LiteralSpec.hexDigitValue c).bind fun x =>
      if ds.length < 3 then lex (.hex ps (ds ++ [x])) s
      else lex (.str (ps ++ [.unit ((ds ++ [x]).foldl (fun n d => n * 16 + d) 0)])) s

/-! ## Values -/

/-- A literal or a number. -/
def literal (w : Str) : Option Json :=
  if w = b!"null" then some .null
  else if w = b!"true" then some (.bool true)
  else if w = b!"false" then some (.bool false)
  else (LiteralSpec.readInt w).map .int

mutual

/-- A value; `n` bounds the number of steps. -/
def value : Nat → List Tok → Option (Json × List Tok)
  | 0, _ => none
  | _ + 1, [] => none
  | _ + 1, .str s :: r => some (.str s, r)
  | _ + 1, .word w :: r => (literal w).map (·, r)
  | n + 1, .punct c :: r =>
    if c = '[' then
      if r.head? = some (.punct ']') then some (.arr [], r.tail)
      else (items n r).map fun (xs, r) => (.arr xs, r)
    else if c = '{' then
      if r.head? = some (.punct '}') then some (.obj [], r.tail)
      else (members n r).map fun (ms, r) => (.obj ms, r)
    else none

/-- The values of an array up to the closing bracket. -/
def items : Nat → List Tok → Option (List Json × List Tok)
  | 0, _ => none
  | n + 1, ts => (value n ts).bind fun (x, r) =>
    match r with
    | .punct ',' :: r => (items n r).map fun (xs, r) => (x :: xs, r)
    | .punct ']' :: r => some ([x], r)
    | _ => none

/-- The members of an object up to the closing brace. -/
def members : Nat → List Tok → Option (List (Str × Json) × List Tok)
  | 0, _ => none
  | n + 1, .str k :: .punct ':' :: ts => (value n ts).bind fun (x, r) =>
    match r with
    | .punct ',' :: r => (members n r).map fun (xs, r) => ((k, x) :: xs, r)
    | .punct '}' :: r => some ([(k, x)], r)
    | _ => none
  | _, _ => none

end

/-- The value that a text is. -/
def read (s : Str) : Option Json :=
  (lex .out s).bind fun ts =>
    match value (ts.length + 1) ts with
    | some (j, []) => some j
    | _ => none

end JsonText
