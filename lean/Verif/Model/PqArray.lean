import Verif.Model.BatchInsert

/-!
# Postgres arrays as text: /repo/internal/pqarray/pqarray.go
-/

namespace Go

/-- strconv.AppendInt(nil, n, 10), strconv.FormatInt(n, 10) -/
def formatInt : Int → Str
  | .ofNat n => Nat.toDigits 10 n
  | .negSucc n => '-' :: Nat.toDigits 10 (n + 1)

/-- The digits part of strconv.ParseInt: all characters must be digits and there must be one. -/
def parseDigits (s : Str) : Option Nat :=
  if s ≠ [] ∧ s.all isDigit then some (Nat.ofDigitChars 10 s 0) else none

/-- strconv.ParseInt(s, 10, 64); `none` is an error (syntax or range). -/
def parseInt64 (s : Str) : Option Int :=
  match s with
  | '-' :: r => match parseDigits r with
    | some n => if n ≤ 2 ^ 63 then some (-(n : Int)) else none
    | none => none
  | '+' :: r => match parseDigits r with
    | some n => if n < 2 ^ 63 then some n else none
    | none => none
  | r => match parseDigits r with
    | some n => if n < 2 ^ 63 then some n else none
    | none => none

/-- encoding/hex: the digit of a number below 16 -/
def hexDigit (n : Nat) : Char := Char.ofNat (if n < 10 then 48 + n else 87 + n)

/-- hex.Encode, hex.EncodeToString: two digits per byte. -/
def hexEncode (s : Str) : Str := s.flatMap fun c => [hexDigit (c.toNat / 16), hexDigit (c.toNat % 16)]

/-- encoding/hex: the value of a digit of either case -/
def hexValue (c : Char) : Option Nat :=
  let n := c.toNat
  if 48 ≤ n ∧ n ≤ 57 then some (n - 48)
  else if 97 ≤ n ∧ n ≤ 102 then some (n - 87)
  else if 65 ≤ n ∧ n ≤ 70 then some (n - 55)
  else none

/-- hex.Decode, hex.DecodeString; `none` is an error. -/
def hexDecode : Str → Option Str
  | [] => some []
  | [_] => none
  | a :: b :: r =>
    match hexValue a, hexValue b, hexDecode r with
    | some x, some y, some t => some (Char.ofNat (16 * x + y) :: t)
    | _, _, _ => none

end Go

namespace Sqddl.PqArray
open Go

/-- /repo/internal/pqarray/pqarray.go:763-778 `appendArrayQuotedBytes`, the bytes appended. -/
def quoteElem (v : Str) : Str :=
  '"' :: (v.flatMap fun c => if c = '"' ∨ c = '\\' then ['\\', c] else [c]) ++ ['"']

/-- The result of parseArray: an error, a run-time panic (index out of range or division by zero),
or dimensions and elements; the element `none` is nil. -/
inductive ParseResult
  | error
  | panic
  | ok (dims : List Nat) (elems : List (Option Str))

/-- /repo/internal/pqarray/pqarray.go:822-839: a quoted element behind its first quote: the element
and the remaining text; `none` if the text ends first. -/
def quotedLoop : Str → Option (Str × Str)
  | [] => none
  | '\\' :: [] => none
  | '\\' :: c :: r => (quotedLoop r).map fun (e, t) => (c :: e, t)
  | '"' :: r => some ([], r)
  | c :: r => (quotedLoop r).map fun (e, t) => (c :: e, t)

/-- /repo/internal/pqarray/pqarray.go:842-853: an element without quotes and the text from its end;
the remaining text is empty if there is no delimiter and no closing brace. -/
def plainElem (del : Char) (s : Str) : Str × Str :=
  (s.takeWhile fun c => c ≠ del ∧ c ≠ '}', s.dropWhile fun c => c ≠ del ∧ c ≠ '}')

theorem plainElem_length (del : Char) (s : Str) : (plainElem del s).2.length ≤ s.length :=
  (List.dropWhile_sublist (l := s) fun c => decide (c ≠ del ∧ c ≠ '}')).length_le

theorem quotedLoop_length {s e t : Str} (h : quotedLoop s = some (e, t)) : t.length < s.length := by
  fun_induction quotedLoop s generalizing e t with
  | case1 => simp at h
  | case2 => simp at h
  | case3 c r ih =>
    obtain ⟨⟨e', t'⟩, h2, h3⟩ := Option.map_eq_some_iff.1 h
    have := ih h2
    simp at h3 ⊢; rw [← h3.2]; omega
  | case4 => simp at h; simp [h]
  | case5 c r _ _ _ ih =>
    obtain ⟨⟨e', t'⟩, h2, h3⟩ := Option.map_eq_some_iff.1 h
    have := ih h2
    simp at h3 ⊢; rw [← h3.2]; omega

/-- /repo/internal/pqarray/pqarray.go:813-893: everything behind the opening braces.  `inElem` tells
whether the loop at label Element runs (lines 812-856) or the one behind it (858-870).
`depth = k + 1` stands for `depth > 0`; `dims[k]?` is `none` where Go would panic. -/
def parseLoop (del : Char) (inElem : Bool) (dims : List Nat) (depth : Nat)
    (elems : List (Option Str)) (s : Str) : ParseResult :=
  if inElem then
    match s with
    | [] => finish dims depth elems
    | c :: r =>
      if c = '{' then
        if depth = dims.length then parseLoop del false dims depth elems (c :: r)
        else if depth < dims.length then parseLoop del true (dims.set depth 0) (depth + 1) elems r
        else .panic
      else if c = '"' then
        match _h : quotedLoop r with
        | none => finish dims depth elems
        | some (e, t) => parseLoop del false dims depth (elems ++ [some e]) t
      else
        match _h : plainElem del (c :: r) with
        | (e, t) =>
          if t = [] then finish dims depth elems
          else if e = [] then .error
          else parseLoop del false dims depth (elems ++ [if e = b!"NULL" then none else some e]) t
  else
    match s with
    | [] => finish dims depth elems
    | c :: r =>
      if c = del ∧ depth > 0 then
        match dims[depth - 1]? with
        | none => .panic
        | some n => parseLoop del true (dims.set (depth - 1) (n + 1)) depth elems r
      else if c = '}' ∧ depth > 0 then
        match dims[depth - 1]? with
        | none => .panic
        | some n => parseLoop del false (dims.set (depth - 1) (n + 1)) (depth - 1) elems r
      else .error
termination_by 2 * s.length + (if inElem then 1 else 0)
decreasing_by
  all_goals simp only [List.length_cons, if_false, if_true]
  · rw [if_pos ‹_›]; omega
  · rw [if_pos ‹_›]; omega
  · have := quotedLoop_length _h; omega
  · have hs := plainElem_length del (c :: r)
    rw [_h, List.length_cons] at hs
    rw [if_pos ‹_›]; simp at hs; omega
  · rw [if_neg ‹_›]; omega
  · rw [if_neg ‹_›]; omega
where
  /-- /repo/internal/pqarray/pqarray.go:872-893 with no text left: the check of the dimensions. -/
  finish (dims : List Nat) (depth : Nat) (elems : List (Option Str)) : ParseResult :=
    if depth > 0 then .error
    else if dims.any (· == 0) then .panic
    else if dims.any fun d => elems.length % d ≠ 0 then .error
    else .ok dims elems

/-- /repo/internal/pqarray/pqarray.go:872-885: label Close with `depth` braces to close. -/
def closeLoop (depth : Nat) : Str → ParseResult
  | [] => if depth > 0 then .error else .ok [] []
  | c :: r => if c = '}' ∧ depth > 0 then closeLoop (depth - 1) r else .error

/-- /repo/internal/pqarray/pqarray.go:790-893 `parseArray` for a delimiter of one byte. -/
def parseArray (del : Char) (src : Str) : ParseResult :=
  if src.head? ≠ some '{' then .error
  else
    let depth := (src.takeWhile (· == '{')).length
    let rest := src.dropWhile (· == '{')
    if rest.head? = some '}' then closeLoop depth rest
    else parseLoop del true (List.replicate depth 0) depth [] rest

/-- The result of scanning: an error, a panic, or a value. -/
inductive Scan (α : Type)
  | error
  | panic
  | ok (a : α)
deriving DecidableEq

/-- /repo/internal/pqarray/pqarray.go:895-904 `scanLinearArray` with the delimiter `,`, followed by
the conversion of every element (`none`: error) as in lines 106-124, 184-190, 536-541, 660-665. -/
def scanLinear {α : Type} (conv : Option Str → Option α) (src : Str) : Scan (List α) :=
  match parseArray ',' src with
  | .error => .error
  | .panic => .panic
  | .ok dims elems =>
    if dims.length > 1 then .error
    else match elems.mapM conv with
      | some xs => .ok xs
      | none => .error

/-- /repo/internal/pqarray/pqarray.go:652-669 `StringArray.scanBytes` -/
def scanStrings (src : Str) : Scan (List Str) := scanLinear id src

/-- /repo/internal/pqarray/pqarray.go:102-127 `BoolArray.scanBytes` -/
def scanBools (src : Str) : Scan (List Bool) :=
  scanLinear (fun v => match v with
    | some ['t'] => some true
    | some ['f'] => some false
    | _ => none) src

/-- /repo/internal/pqarray/pqarray.go:528-545 `Int64Array.scanBytes`; nil is read as the empty
string, which is no number. -/
def scanInts (src : Str) : Scan (List Int) := scanLinear (fun v => parseInt64 (v.getD [])) src

/-- /repo/internal/pqarray/pqarray.go:913-949, the `escape` format of parseBytea.  Three characters
behind a backslash are read as an octal number of at most 255 (strconv.ParseUint with base 8 and 8
bits). -/
def parseEscape : Str → Option Str
  | [] => some []
  | '\\' :: '\\' :: r => (parseEscape r).map ('\\' :: ·)
  | '\\' :: a :: b :: c :: r =>
    if ([a, b, c].all fun x => '0' ≤ x && x ≤ '7') ∧ Nat.ofDigitChars 8 [a, b, c] 0 < 256 then
      (parseEscape r).map (Char.ofNat (Nat.ofDigitChars 8 [a, b, c] 0) :: ·)
    else none
  | '\\' :: _ => none
  | c :: r => (parseEscape r).map (c :: ·)

/-- /repo/internal/pqarray/pqarray.go:906-950 `parseBytea` -/
def parseBytea (s : Str) : Option Str :=
  match s with
  | '\\' :: 'x' :: r => hexDecode r
  | _ => parseEscape s

/-- /repo/internal/pqarray/pqarray.go:990-1012 `encodeBytea` -/
def encodeBytea (serverVersion : Nat) (v : Str) : Str :=
  if serverVersion ≥ 90000 then b!"\\x" ++ hexEncode v
  else v.flatMap fun c =>
    if c = '\\' then b!"\\\\"
    else if c.toNat < 0x20 ∨ c.toNat > 0x7e then
      ['\\', Nat.digitChar (c.toNat / 64), Nat.digitChar (c.toNat / 8 % 8), Nat.digitChar (c.toNat % 8)]
    else [c]

/-- /repo/internal/pqarray/pqarray.go:176-194 `ByteaArray.scanBytes`; nil is read as no bytes. -/
def scanByteas (src : Str) : Scan (List Str) := scanLinear (fun v => parseBytea (v.getD [])) src

/-- The text of an array of elements: `{`, the elements with commas between them, `}`. -/
def arrayText (elems : List Str) : Str := b!"{" ++ join b!"," elems ++ b!"}"

/-- /repo/internal/pqarray/pqarray.go:672-693 `StringArray.Value` of a slice that is not nil -/
def stringsValue (xs : List Str) : Str := arrayText (xs.map quoteElem)

/-- /repo/internal/pqarray/pqarray.go:130-154 `BoolArray.Value` of a slice that is not nil -/
def boolsValue (xs : List Bool) : Str := arrayText (xs.map fun b => if b then b!"t" else b!"f")

/-- /repo/internal/pqarray/pqarray.go:548-569 `Int64Array.Value` of a slice that is not nil -/
def intsValue (xs : List Int) : Str := arrayText (xs.map formatInt)

/-- /repo/internal/pqarray/pqarray.go:198-227 `ByteaArray.Value` of a slice that is not nil -/
def byteasValue (xs : List Str) : Str :=
  arrayText (xs.map fun x => b!"\"\\\\x" ++ hexEncode x ++ b!"\"")

end Sqddl.PqArray
