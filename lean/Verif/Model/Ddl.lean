import Verif.Basic

/-!
# Pure helpers of /repo/ddl/ddl.go: names, brackets, arguments, types, defaults, versions
-/

namespace Go

/-- `strings.ReplaceAll(s, " ", "")` -/
def removeSpaces (s : Str) : Str := s.filter (· ≠ ' ')

/-- `strings.Index(s, c)` for a one-byte needle; `none` stands for -1. -/
def indexByte (s : Str) (c : Char) : Option Nat := s.findIdx? (· == c)

/-- `strings.LastIndex(s, c)` for a one-byte needle; `none` stands for -1. -/
def lastIndexByte (s : Str) (c : Char) : Option Nat :=
  (s.reverse.findIdx? (· == c)).map fun k => s.length - 1 - k

/-- `strings.Cut(s, "::")`: the part before, if found. -/
def cutColons : Str → Option Str
  | [] => none
  | [_] => none
  | c :: d :: r =>
    if c = ':' ∧ d = ':' then some [] else (cutColons (d :: r)).map (c :: ·)

end Go

namespace Sqddl
open Go

/-- The `nameType` of GenerateName, /repo/ddl/ddl.go:18-25; `other` is any other string. -/
inductive NameType
  | primaryKey | foreignKey | unique | index | check | exclude | other
deriving DecidableEq, Repr

/-- /repo/ddl/ddl.go:591-605 -/
def nameSuffix : NameType → Str
  | .primaryKey => b!"_pkey"
  | .foreignKey => b!"_fkey"
  | .unique => b!"_key"
  | .index => b!"_idx"
  | .check => b!"_check"
  | .exclude => b!"_excl"
  | .other => []

/-- /repo/ddl/ddl.go:576-581, 584-589: spaces become underscores.  The Go loop runs over runes
and copies them; on valid UTF-8 this copies the bytes.  (Bytes that are not valid UTF-8 would be
replaced by U+FFFD; not modelled.) -/
def underscored (s : Str) : Str := s.map fun c => if c = ' ' then '_' else c

/-- /repo/ddl/ddl.go:570-590: the name before the suffix. -/
def namePrefix (table : Str) (columns : List Str) : Str :=
  underscored table ++ columns.flatMap fun c => '_' :: underscored c

/-- /repo/ddl/ddl.go:569-615 `GenerateName` -/
def generateName (t : NameType) (table : Str) (columns : List Str) : Str :=
  let p := namePrefix table columns
  let excess := p.length + (nameSuffix t).length - 63
  if excess > 0 then p.take (p.length - excess) ++ nameSuffix t
  else p ++ nameSuffix t

/-- /repo/ddl/ddl.go:663-665 `wrappedInBrackets` -/
def wrappedInBrackets (s : Str) : Bool := s.head? == some '(' && s.getLast? == some ')'

/-- /repo/ddl/ddl.go:642-650 `wrapBrackets` -/
def wrapBrackets (s : Str) : Str :=
  if s = [] then [] else if wrappedInBrackets s then s else '(' :: s ++ [')']

/-- /repo/ddl/ddl.go:652-661 `unwrapBrackets` -/
def unwrapBrackets (s : Str) : Str :=
  if wrappedInBrackets s then s.tail.dropLast else s

/-- /repo/ddl/ddl.go:679-744: one run of the inner loop of splitArgs.  `arr`, `br` and `str` are
`arrayLevel`, `bracketLevel` and `insideString`; the result is the text before and after the
first delimiter, `none` if there is no delimiter (`splitAt = -1`).  The rune loop is run over
bytes: the bytes it looks for are ASCII and occur in no longer UTF-8 sequence. -/
def splitFirst (arr br : Nat) (str : Bool) : Str → Option (Str × Str)
  | [] => none
  | c :: r =>
    let go (arr' br' : Nat) (str' : Bool) :=
      (splitFirst arr' br' str' r).map fun (p, q) => (c :: p, q)
    if arr > 0 then go (if c = ']' then arr - 1 else if c = '[' then arr + 1 else arr) br str
    else if br > 0 then go arr (if c = ')' then br - 1 else if c = '(' then br + 1 else br) str
    else if str then
      if c = '\'' then
        match r with
        | '\'' :: r' => (splitFirst arr br true r').map fun (p, q) => (c :: '\'' :: p, q)
        | _ => go arr br false
      else go arr br true
    else if c = '[' then go 1 br str
    else if c = '(' then go arr 1 str
    else if c = '\'' then go arr br true
    else if c = ',' then some ([], r)
    else go arr br str
termination_by s => s.length

theorem splitFirst_eq {arr br str s p q} (h : splitFirst arr br str s = some (p, q)) :
    s = p ++ ',' :: q := by
  fun_induction splitFirst arr br str s generalizing p q with
  | case1 => simp at h
  | case2 =>
    obtain ⟨⟨p', q'⟩, h2, h3⟩ := Option.map_eq_some_iff.1 h
    grind
  | case3 =>
    obtain ⟨⟨p', q'⟩, h2, h3⟩ := Option.map_eq_some_iff.1 h
    grind
  | case4 =>
    obtain ⟨⟨p', q'⟩, h2, h3⟩ := Option.map_eq_some_iff.1 h
    grind
  | case5 =>
    obtain ⟨⟨p', q'⟩, h2, h3⟩ := Option.map_eq_some_iff.1 h
    grind
  | case6 =>
    obtain ⟨⟨p', q'⟩, h2, h3⟩ := Option.map_eq_some_iff.1 h
    grind
  | case7 =>
    obtain ⟨⟨p', q'⟩, h2, h3⟩ := Option.map_eq_some_iff.1 h
    grind
  | case8 =>
    obtain ⟨⟨p', q'⟩, h2, h3⟩ := Option.map_eq_some_iff.1 h
    grind
  | case9 =>
    obtain ⟨⟨p', q'⟩, h2, h3⟩ := Option.map_eq_some_iff.1 h
    grind
  | case10 => grind
  | case11 =>
    obtain ⟨⟨p', q'⟩, h2, h3⟩ := Option.map_eq_some_iff.1 h
    grind

/-- /repo/ddl/ddl.go:676-753: the outer loop of splitArgs. -/
def splitLoop (s : Str) : List Str :=
  match _h : splitFirst 0 0 false s with
  | none => [s]
  | some (p, q) => p :: splitLoop q
termination_by s.length
decreasing_by simp [splitFirst_eq _h]; omega

/-- /repo/ddl/ddl.go:669-754 `splitArgs` -/
def splitArgs (s : Str) : List Str := if s = [] then [] else splitLoop s

/-- /repo/ddl/ddl.go:762-775: base type, first and second argument, text behind the brackets.
`none`: the slice `columnType[:i]` with i = -1 panics. -/
def typeArgs (t : Str) : Option (Str × Str × Str × Str) :=
  match indexByte t '(', lastIndexByte t ')' with
  | none, none => some (t, [], [], [])
  | some _, none => some (t, [], [], [])
  | none, some _ => none
  | some i, some j =>
    if i < j then
      let args := trimSpace ((t.take j).drop (i + 1))
      let suffix := trimSpace (t.drop (j + 1))
      let base := trimSpace (t.take i)
      match indexByte args ',' with
      | some k => some (base, trimSpace (args.take k), trimSpace (args.drop (k + 1)), suffix)
      | none => some (base, trimSpace args, [], suffix)
    else some (t, [], [], [])

/-- /repo/ddl/ddl.go:784-826, the cases of the Postgres switch with a constant result. -/
def pgTypeTable : List (Str × Str) :=
  [(b!"INTEGER", b!"INT"), (b!"SERIAL", b!"INT"), (b!"SERIAL4", b!"INT"), (b!"INT4", b!"INT"),
   (b!"BIGSERIAL", b!"BIGINT"), (b!"SERIAL8", b!"BIGINT"), (b!"INT8", b!"BIGINT"),
   (b!"SMALLSERIAL", b!"SMALLINT"), (b!"SERIAL2", b!"SMALLINT"), (b!"INT2", b!"SMALLINT"),
   (b!"DECIMAL", b!"NUMERIC"), (b!"FLOAT4", b!"REAL"), (b!"FLOAT8", b!"DOUBLE PRECISION"),
   (b!"CHARACTERVARYING", b!"VARCHAR"), (b!"CHARACTER", b!"CHAR"),
   (b!"TIMESTAMPWITHOUTTIMEZONE", b!"TIMESTAMP"), (b!"TIMESTAMPWITHTIMEZONE", b!"TIMESTAMPTZ"),
   (b!"TIMEWITHOUTTIMEZONE", b!"TIME"), (b!"TIMEWITHTIMEZONE", b!"TIMETZ"),
   (b!"BITVARYING", b!"VARBIT"), (b!"BOOL", b!"BOOLEAN")]

/-- /repo/ddl/ddl.go:784-826, the Postgres switch; lines 808-811 and 816-819 are the cases that
look at the text behind the brackets. -/
def pgTypeName (base suffix : Str) : Str :=
  match pgTypeTable.lookup (removeSpaces base) with
  | some c => c
  | none =>
    if removeSpaces base = b!"TIMESTAMP" ∧ removeSpaces suffix = b!"WITHTIMEZONE" then b!"TIMESTAMPTZ"
    else if removeSpaces base = b!"TIME" ∧ removeSpaces suffix = b!"WITHTIMEZONE" then b!"TIMETZ"
    else base

/-- /repo/ddl/ddl.go:776-780, 782-826, 870-872: the Postgres part of normalizeColumnType. -/
def pgType (base suffix : Str) : Str :=
  if hasSuffix base b!"[]" then pgTypeName (base.take (base.length - 2)) suffix ++ b!"[]"
  else pgTypeName base suffix

/-- /repo/ddl/ddl.go:834-850, the MySQL switch. -/
def mysqlTypeName (base arg1 arg2 : Str) : Str × Str × Str :=
  let n := removeSpaces base
  if n = b!"INTEGER" then (b!"INT", [], [])
  else if n ∈ [b!"DEC", b!"DECIMAL"] then (b!"NUMERIC", arg1, arg2)
  else if n ∈ [b!"BOOL", b!"BOOLEAN"] then (b!"TINYINT", b!"1", [])
  else if n = b!"TINYINT" then (base, if arg1 ≠ b!"1" then [] else arg1, [])
  else if n ∈ [b!"SMALLINT", b!"MEDIUMINT", b!"INT", b!"BIGINT"] then (base, [], [])
  else (base, arg1, arg2)

/-- /repo/ddl/ddl.go:827-853: the MySQL part of normalizeColumnType. -/
def mysqlType (base arg1 arg2 : Str) : Str × Str × Str :=
  if hasSuffix base b!" UNSIGNED" then
    let (n, a1, a2) := mysqlTypeName (trimSuffix base b!" UNSIGNED") arg1 arg2
    (n ++ b!" UNSIGNED", a1, a2)
  else mysqlTypeName (trimSuffix base b!" SIGNED") arg1 arg2

/-- /repo/ddl/ddl.go:855-868: the cases of the SQL Server switch. -/
def sqlserverTypeTable : List (Str × Str) :=
  [(b!"BINARYVARYING", b!"VARBINARY"), (b!"INTEGER", b!"INT"),
   (b!"NATIONALCHARACTERVARYING", b!"NVARCHAR"), (b!"CHARACTERVARYING", b!"VARCHAR"),
   (b!"CHARACTER", b!"CHAR"), (b!"DEC", b!"NUMERIC"), (b!"DECIMAL", b!"NUMERIC")]

/-- /repo/ddl/ddl.go:854-868: the SQL Server part of normalizeColumnType. -/
def sqlserverType (base : Str) : Str :=
  match sqlserverTypeTable.lookup (removeSpaces base) with
  | some c => c
  | none => base

/-- /repo/ddl/ddl.go:758-874 `normalizeColumnType`: type, first and second argument; `none` is a
panic.  `strings.ToUpper` and `strings.TrimSpace` are modelled for ASCII text. -/
def normalizeColumnType (d : Dialect) (columnType : Str) : Option (Str × Str × Str) :=
  match typeArgs (toUpper (trimSpace columnType)) with
  | none => none
  | some (base, arg1, arg2, suffix) =>
    match d with
    | .postgres => some (pgType base suffix, arg1, arg2)
    | .mysql => some (mysqlType base arg1 arg2)
    | .sqlserver => some (sqlserverType base, arg1, arg2)
    | _ => some (base, arg1, arg2)

/-- /repo/ddl/ddl.go:878-914 `normalizeColumnDefault` -/
def normalizeColumnDefault (d : Dialect) (columnDefault : Str) : Str :=
  let s := trimSpace columnDefault
  let u := toUpper s
  if s = [] then []
  else if u ∈ [b!"1", b!"TRUE"] then b!"'1'"
  else if u ∈ [b!"0", b!"FALSE"] then b!"'0'"
  else if u ∈ [b!"CURRENT_DATE", b!"CURRENT_TIME", b!"CURRENT_TIMESTAMP", b!"NULL"] then u
  else
    match d with
    | .sqlite => if u ∈ [b!"DATETIME()", b!"DATETIME('NOW')"] then b!"CURRENT_TIMESTAMP" else s
    | .postgres =>
      if u = b!"NOW()" then b!"CURRENT_TIMESTAMP"
      else match cutColons s with
        | some before => before
        | none => s
    | .mysql => if u = b!"NOW()" then b!"CURRENT_TIMESTAMP" else s
    | .sqlserver => if u = b!"GETDATE()" then b!"CURRENT_TIMESTAMP" else s
    | _ => s

/-- /repo/ddl/ddl.go:1094-1104 `VersionNums.LowerThan`; Go's `int` as `Int`. -/
def lowerThan : List Int → List Int → Bool
  | [], _ => false
  | _ :: _, [] => false
  | v :: vs, n :: ns => if v > n then false else if v < n then true else lowerThan vs ns

/-- /repo/ddl/ddl.go:1112-1114 `VersionNums.GreaterOrEqualTo` -/
def greaterOrEqualTo (v nums : List Int) : Bool := !lowerThan v nums

end Sqddl
