import Verif.Spec.JsonText
import Verif.Model.PqArray

/-!
# Writing JSON

`encoding/json` as it is used in /repo/ddl/dump_cmd.go:338-343, 425-430, 537-542: an `Encoder` with
`SetIndent("", "  ")`, which also escapes the characters of HTML.
-/

namespace Go
open JsonText (Json)

/-- The hexadecimal digit. -/
def lowerHex (n : Nat) : Char := Nat.digitChar n

/-- `\u00XX` -/
def escapeUnit (n : Nat) : Str := b!"\\u00" ++ [lowerHex (n / 16), lowerHex (n % 16)]

/-- A byte of ASCII in a string.  (From Go 1.22 on, U+0008 and U+000C are written as `\b` and `\f`.) -/
def escapeByte (c : Char) : Str :=
  if c = '"' ∨ c = '\\' then ['\\', c]
  else if c = '\n' then b!"\\n"
  else if c = '\r' then b!"\\r"
  else if c = '\t' then b!"\\t"
  else if c.toNat < 0x20 ∨ c = '<' ∨ c = '>' ∨ c = '&' then escapeUnit c.toNat
  else [c]

/-- `unicode/utf8`: the ranges of the bytes that follow a first byte. -/
def following (n : Nat) : Option (List (Nat × Nat)) :=
  if 0xC2 ≤ n ∧ n ≤ 0xDF then some [(0x80, 0xBF)]
  else if n = 0xE0 then some [(0xA0, 0xBF), (0x80, 0xBF)]
  else if n = 0xED then some [(0x80, 0x9F), (0x80, 0xBF)]
  else if 0xE1 ≤ n ∧ n ≤ 0xEF then some [(0x80, 0xBF), (0x80, 0xBF)]
  else if n = 0xF0 then some [(0x90, 0xBF), (0x80, 0xBF), (0x80, 0xBF)]
  else if 0xF1 ≤ n ∧ n ≤ 0xF3 then some [(0x80, 0xBF), (0x80, 0xBF), (0x80, 0xBF)]
  else if n = 0xF4 then some [(0x80, 0x8F), (0x80, 0xBF), (0x80, 0xBF)]
  else none

/-- The bytes are in the ranges. -/
def inRanges : List (Nat × Nat) → Str → Bool
  | [], _ => true
  | _ :: _, [] => false
  | (lo, hi) :: r, c :: s => decide (lo ≤ c.toNat) && decide (c.toNat ≤ hi) && inRanges r s

/-- `utf8.DecodeRuneInString`: how many bytes follow the first byte of a rune; `none` for `RuneError`. -/
def runeRest (c : Char) (s : Str) : Option Nat :=
  (following c.toNat).bind fun r => if inRanges r s then some r.length else none

/-- A string without its quotes.  `n` bytes of a rune that was begun are still to come, which are left
out if `skip` is set. -/
def escapeFrom (skip : Bool) : Nat → Str → Str
  | _, [] => []
  | n + 1, c :: s => if skip then escapeFrom skip n s else c :: escapeFrom skip n s
  | 0, c :: s =>
    if c.toNat < 0x80 then escapeByte c ++ escapeFrom false 0 s
    else match runeRest c s with
      | none => b!"\\ufffd" ++ escapeFrom false 0 s
      | some n =>
        if c.toNat = 0xE2 ∧ s.head?.map Char.toNat = some 0x80 ∧
            (s.tail.head?.map Char.toNat = some 0xA8 ∨ s.tail.head?.map Char.toNat = some 0xA9) then
          b!"\\u202" ++ [lowerHex (((s.tail.head?.map Char.toNat).getD 0) % 16)] ++ escapeFrom true n s
        else c :: escapeFrom false n s

/-- A string. -/
def quoteJson (s : Str) : Str := '"' :: (escapeFrom false 0 s ++ b!"\"")

/-- The beginning of a line. -/
def newline (d : Nat) : Str := '\n' :: List.replicate (2 * d) ' '

mutual

/-- A value at an indentation. -/
def printJson (d : Nat) : Json → Str
  | .null => b!"null"
  | .bool true => b!"true"
  | .bool false => b!"false"
  | .int n => formatInt n
  | .str s => quoteJson s
  | .arr [] => b!"[]"
  | .arr (x :: xs) => '[' :: (printItems (d + 1) (x :: xs) ++ newline d ++ b!"]")
  | .obj [] => b!"{}"
  | .obj (m :: ms) => '{' :: (printMembers (d + 1) (m :: ms) ++ newline d ++ b!"}")

/-- The values of an array. -/
def printItems (d : Nat) : List Json → Str
  | [] => []
  | x :: xs => newline d ++ printJson d x ++ (if xs.isEmpty then [] else b!",") ++ printItems d xs

/-- The members of an object. -/
def printMembers (d : Nat) : List (Str × Json) → Str
  | [] => []
  | m :: ms => newline d ++ printMember d m ++ (if ms.isEmpty then [] else b!",") ++ printMembers d ms

/-- A member of an object. -/
def printMember (d : Nat) : Str × Json → Str
  | (k, x) => quoteJson k ++ b!": " ++ printJson d x

end

/-- `encoder.Encode` -/
def encodeJson (j : Json) : Str := printJson 0 j ++ b!"\n"

end Go
