import Verif.Basic

/-!
# Go's `encoding/csv` as `dump` and `load` use it

`dump` writes with the default settings (/repo/ddl/dump_cmd.go:909-995), `load` reads with
`FieldsPerRecord = -1` and `LazyQuotes = true` (/repo/ddl/load_cmd.go:370-374; `ReuseRecord` only
saves allocations: the records are consumed before the next one is read, and of the header only its
length is used after that).  The code of `encoding/csv` is not in /repo; it is modelled as the Go 1.18
library defines it.
-/

namespace Sqddl.Csv
open Go

/-- `(*csv.Writer).fieldNeedsQuotes`, called from /repo/ddl/dump_cmd.go:910 and 990.  `space` says
whether the first character of a field is a Unicode space. -/
def needsQuotes (space : Str → Bool) (f : Str) : Bool :=
  f ≠ [] && (f = b!"\\." || f.any (fun c => c = '\n' || c = '\r' || c = '"' || c = ',') || space f)

/-- `(*csv.Writer).Write`, one field (/repo/ddl/dump_cmd.go:910, 990): quotes are doubled, everything
else is written as it is. -/
def writeField (space : Str → Bool) (f : Str) : Str :=
  if needsQuotes space f then
    '"' :: (f.flatMap fun c => if c = '"' then ['"', '"'] else [c]) ++ ['"']
  else f

/-- `(*csv.Writer).Write`: /repo/ddl/dump_cmd.go:910, 990 -/
def writeRecord (space : Str → Bool) (r : List Str) : Str :=
  join b!"," (r.map (writeField space)) ++ b!"\n"

/-- /repo/ddl/dump_cmd.go:909-995: the text of a file -/
def write (space : Str → Bool) (rs : List (List Str)) : Str := rs.flatMap (writeRecord space)

/-- `(*csv.Reader).readLine` (/repo/ddl/load_cmd.go:377, 424) on all lines: a carriage return at the
end of a line is dropped, also at the end of the file. -/
def lines : Str → Str
  | [] => []
  | ['\r'] => []
  | '\r' :: '\n' :: s => '\n' :: lines s
  | c :: s => c :: lines s

/-- What follows a field: another field, or the end of the record. -/
inductive End
  | field | record
deriving DecidableEq, Repr

/-- `(*csv.Reader).readRecord` (/repo/ddl/load_cmd.go:377, 424), a field that does not begin with a
quote: it ends at a comma, at the end of the line or of the file.  With `LazyQuotes` a quote is
nothing special. -/
def plain : Str → Str × End × Str
  | [] => ([], .record, [])
  | c :: s =>
    if c = ',' then ([], .field, s)
    else if c = '\n' then ([], .record, s)
    else (c :: (plain s).1, (plain s).2)

/-- `(*csv.Reader).readRecord` (/repo/ddl/load_cmd.go:377, 424), a field behind its first quote.  A
quote that is followed by something else than a quote, a comma or the end of a line stands for itself
(`LazyQuotes`). -/
def quoted : Str → Str × End × Str
  | [] => ([], .record, [])
  | '"' :: '"' :: s => ('"' :: (quoted s).1, (quoted s).2)
  | '"' :: ',' :: s => ([], .field, s)
  | '"' :: '\n' :: s => ([], .record, s)
  | ['"'] => ([], .record, [])
  | c :: s => (c :: (quoted s).1, (quoted s).2)

/-- `(*csv.Reader).readRecord` (/repo/ddl/load_cmd.go:377, 424): one field, what follows it, and the
text behind it -/
def readField (s : Str) : Str × End × Str :=
  if s.head? = some '"' then quoted s.tail else plain s

/-- `(*csv.Reader).readRecord` (/repo/ddl/load_cmd.go:377, 424): the fields of a record and the text
behind it.  Every field but the last takes at least one character, so a number `n` of steps that is
the length of the text is enough. -/
def readRecord : Nat → Str → List Str × Str
  | 0, s => ([], s)
  | n + 1, s =>
    match (readField s).2.1 with
    | .record => ([(readField s).1], (readField s).2.2)
    | .field => ((readField s).1 :: (readRecord n (readField s).2.2).1,
        (readRecord n (readField s).2.2).2)

/-- `(*csv.Reader).Read` until `io.EOF` (/repo/ddl/load_cmd.go:377, 424): empty lines are skipped.
Every record takes at least one character. -/
def readRecords : Nat → Str → List (List Str)
  | 0, _ => []
  | n + 1, s =>
    match s.dropWhile (· = '\n') with
    | [] => []
    | c :: t => (readRecord (t.length + 2) (c :: t)).1 ::
        readRecords n (readRecord (t.length + 2) (c :: t)).2

/-- /repo/ddl/load_cmd.go:370-377, 424: all records of a file, with the header -/
def read (s : Str) : List (List Str) := readRecords ((lines s).length + 1) (lines s)

end Sqddl.Csv
