import Verif.Basic
import Verif.Model.Keywords

/-! Model of identifier quoting and literal printing in /repo/ddl/sq.go. -/

namespace Sqddl

/-- /repo/ddl/sq.go:82-102 `EscapeQuote(str, quote)`.  The Go loop jumps from one quote to the next
with `IndexByte`; the recursion visits every byte, copying the ones that are not quotes.  At a
quote two quotes are written, and a second quote directly behind it is skipped when more than two
bytes remain (`len(str[i:]) > 2`). -/
def escapeQuote (q : Char) : Str → Str
  | [] => []
  | [c] => if c = q then [q, q] else [c]
  | [c, d] =>
    if c = q then q :: q :: escapeQuote q [d] else c :: escapeQuote q [d]
  | c :: d :: e :: r =>
    if c = q then
      if d = q then q :: q :: escapeQuote q (e :: r)
      else q :: q :: escapeQuote q (d :: e :: r)
    else c :: escapeQuote q (d :: e :: r)

/-- /repo/ddl/sq.go:37-52: characters that may stay unquoted (`_`, digits, lower case letters). -/
def plainChar (c : Char) : Bool := c == '_' || ('0' ≤ c && c ≤ '9') || ('a' ≤ c && c ≤ 'z')

/-- /repo/ddl/sq.go:30-31: the pseudo tables that are never quoted. -/
def pseudoTables : List Str := [b!"EXCLUDED", b!"INSERTED", b!"DELETED", b!"NEW", b!"OLD"]

/-- /repo/ddl/sq.go:53-64: keyword table of a dialect (none for Oracle and unknown dialects). -/
def keywords : Dialect → List Str
  | .sqlite => sqliteKeywords
  | .postgres => postgresKeywords
  | .mysql => mysqlKeywords
  | .sqlserver => sqlserverKeywords
  | _ => []

/-- /repo/ddl/sq.go:26-66: whether `QuoteIdentifier` quotes. The Go loop ranges over runes; bytes
of multi-byte runes are not plain characters either way. -/
def needsQuoting (d : Dialect) (s : Str) : Bool :=
  match s with
  | [] => true
  | c :: r =>
    if pseudoTables.contains (c :: r) then false
    else if Go.isDigit c then true
    else if (c :: r).all plainChar then (keywords d).contains (Go.toLower (c :: r))
    else true

/-- /repo/ddl/sq.go:69-76: opening quote of a dialect. -/
def openQuote : Dialect → Char
  | .mysql => '`'
  | .sqlserver => '['
  | _ => '"'

/-- /repo/ddl/sq.go:69-76: closing quote of a dialect, the one that is escaped. -/
def closeQuote : Dialect → Char
  | .mysql => '`'
  | .sqlserver => ']'
  | _ => '"'

/-- /repo/ddl/sq.go:25-77 `QuoteIdentifier`. -/
def quoteIdentifier (d : Dialect) (s : Str) : Str :=
  if needsQuoting d s then openQuote d :: (escapeQuote (closeQuote d) s ++ [closeQuote d]) else s

/-- `strings.ReplaceAll(s, q, qq)` as used in /repo/ddl/sq.go:529,537,567. -/
def doubleQuotes : Str → Str
  | [] => []
  | c :: r => if c = '\'' then '\'' :: '\'' :: doubleQuotes r else c :: doubleQuotes r

/-- /repo/ddl/sq.go:529,537,567: `'` + replaced text + `'`. -/
def sqlLit (s : Str) : Str := '\'' :: (doubleQuotes s ++ ['\''])

/-- /repo/ddl/sq.go:532,538,557,569: dialects that use `CONCAT(..., ...)`. -/
def usesConcat : Dialect → Bool
  | .mysql => true
  | .sqlserver => true
  | _ => false

/-- /repo/ddl/sq.go:538-542,557-561: separator between pieces. -/
def pieceSep (d : Dialect) : Str := if usesConcat d then b!", " else b!" || "

/-- /repo/ddl/sq.go:544-555: how a carriage return or newline is written. -/
def newlineFn (d : Dialect) (c : Char) : Str :=
  (if d = .postgres then b!"CHR(" else b!"CHAR(") ++ (if c = '\r' then b!"13" else b!"10") ++ b!")"

/-- `\r` or `\n`, the characters searched by `strings.IndexAny(str, "\r\n")`. -/
def isNewline (c : Char) : Bool := c == '\r' || c == '\n'

/-- /repo/ddl/sq.go:534-568: the loop of `Sprint` over the pieces between newlines. -/
def sprintPieces (d : Dialect) (s : Str) : Str :=
  match _h : s.dropWhile (fun c => !isNewline c) with
  | [] => if s = [] then [] else sqlLit s
  | c :: rest =>
    let pre := s.takeWhile (fun c => !isNewline c)
    (if pre = [] then [] else sqlLit pre ++ pieceSep d) ++ newlineFn d c ++
      (if rest = [] then [] else pieceSep d) ++ sprintPieces d rest
termination_by s.length
decreasing_by
  have h1 := (List.dropWhile_suffix (l := s) (fun c => !isNewline c)).length_le
  rw [_h] at h1
  simp at h1; omega

/-- /repo/ddl/sq.go:524-573: `Sprint` of a string value. -/
def sprintString (d : Dialect) (s : Str) : Str :=
  if s.any isNewline then
    if usesConcat d then b!"CONCAT(" ++ sprintPieces d s ++ b!")" else sprintPieces d s
  else sqlLit s

end Sqddl
