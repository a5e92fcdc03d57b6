import Verif.Basic

/-!
# What a report of an error says

Postgres counts characters: the first character of a query has position 1.  Texts are UTF-8.
-/

namespace ReportSpec

/-- The byte starts a character (it is not a continuation byte of UTF-8). -/
def startsChar (c : Char) : Bool := c.toNat < 128 || 192 ≤ c.toNat

/-- The number of characters of a text. -/
def chars (s : Str) : Nat := s.countP startsChar

/-- The bytes in front of a character, of which the first has number 0. -/
def beforeChar : Nat → Str → Str
  | _, [] => []
  | 0, c :: r => if startsChar c then [] else c :: beforeChar 0 r
  | n + 1, c :: r => if startsChar c then c :: beforeChar n r else c :: beforeChar (n + 1) r

/-- The line of the character at a position. -/
def lineOf (query : Str) (pos : Nat) : Nat := (beforeChar (pos - 1) query).count '\n' + 1

/-- The report of an error at a line, with the details and the hint of the database. -/
def pgReport (line : Option Nat) (message detail hint : Str) : Str :=
  (match line with
    | some n => b!"line " ++ Nat.toDigits 10 n ++ b!": "
    | none => []) ++
  message ++ (if detail = [] then [] else b!"\ndetail: " ++ detail) ++
  (if hint = [] then [] else b!"\nhint: " ++ hint)

/-- The report of an error at a line with all messages of the server, if there are several. -/
def msReport (line : Nat) (message : Str) (all : List Str) : Str :=
  b!"line " ++ Nat.toDigits 10 line ++ b!": " ++ message ++
  (match all with
    | [] => []
    | [_] => []
    | _ => all.flatMap (fun s => '\n' :: s))

end ReportSpec
