/-!
# Byte strings and the parts of Go's `strings` package used by the model

A Go string is a sequence of bytes.  `Str` is a list of characters in which one `Char` stands
for one byte; all theorems quantify over arbitrary lists and hence over all byte strings.
-/

/-- Go strings: sequences of bytes, one `Char` per byte. -/
abbrev Str := List Char

open Lean in
/-- `b!"abc"` is the explicit list `['a', 'b', 'c']`. -/
macro:max "b!" s:str : term => do
  let cs : Array (TSyntax `term) :=
    (s.getString.toList.map fun c => (Syntax.mkCharLit c : TSyntax `term)).toArray
  `(([$cs,*] : List Char))

namespace Go

/-- `strings.HasPrefix(s, p)`. -/
def hasPrefix (s p : Str) : Bool := p.isPrefixOf s

/-- `strings.HasSuffix(s, p)`. -/
def hasSuffix (s p : Str) : Bool := p.isSuffixOf s

/-- `strings.TrimPrefix(s, p)`. -/
def trimPrefix (s p : Str) : Str := if hasPrefix s p then s.drop p.length else s

/-- `strings.TrimSuffix(s, p)`. -/
def trimSuffix (s p : Str) : Str := if hasSuffix s p then s.take (s.length - p.length) else s

/-- ASCII white space as used by `strings.TrimSpace` on ASCII text. -/
def isSpace (c : Char) : Bool :=
  c == ' ' || c == '\t' || c == '\n' || c == '\r' || c == '\x0b' || c == '\x0c'

/-- `strings.TrimSpace(s)` for ASCII white space. -/
def trimSpace (s : Str) : Str := ((s.dropWhile isSpace).reverse.dropWhile isSpace).reverse

/-- `strings.Join(xs, sep)`. -/
def join (sep : Str) : List Str → Str
  | [] => []
  | [x] => x
  | x :: y :: r => x ++ sep ++ join sep (y :: r)

/-- ASCII lower case of one byte. -/
def lowerC (c : Char) : Char := if 'A' ≤ c ∧ c ≤ 'Z' then Char.ofNat (c.toNat + 32) else c

/-- ASCII upper case of one byte. -/
def upperC (c : Char) : Char := if 'a' ≤ c ∧ c ≤ 'z' then Char.ofNat (c.toNat - 32) else c

/-- `strings.ToLower(s)` restricted to ASCII letters (other bytes are kept). -/
def toLower (s : Str) : Str := s.map lowerC

/-- `strings.ToUpper(s)` restricted to ASCII letters (other bytes are kept). -/
def toUpper (s : Str) : Str := s.map upperC

/-- decimal digit test for one byte -/
def isDigit (c : Char) : Bool := '0' ≤ c && c ≤ '9'

end Go

/-- The dialect constants of /repo/ddl/ddl.go:39-46; `other` is any other non-empty string. -/
inductive Dialect
  | sqlite | postgres | mysql | sqlserver | oracle | other
deriving DecidableEq, Repr
