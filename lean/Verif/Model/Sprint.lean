import Verif.Model.DumpCsv
import Verif.Model.Sprintf

/-!
# `Sprint`: the literal of a value, and `Timestamp`

/repo/ddl/sq.go:237-363 and 494-677.  Package `time` is behind the fields of a `GoTime`, package
`strconv` behind `Floats` (see `Verif/Model/DumpCsv.lean`).
-/

namespace Sqddl.Sprint
open Go DumpCsv Sprintf

/-- A `time.Time`: what the clock shows in its location, the seconds that the location is east of UTC,
and what the clock shows in UTC. -/
structure GoTime where
  wall : Time
  offset : Int := 0
  utc : Time
deriving DecidableEq, Repr

/-- The values that `Sprint` distinguishes: /repo/ddl/sq.go:501-676.  All sizes of integers are one,
and both sizes of floating point numbers.  `none` in `bytes` is a nil slice, in the types of
`database/sql` it is `Valid: false`. -/
inductive Arg (F : Type)
  | null
  | bool (b : Bool)
  | bytes (b : Option Str)
  | str (s : Str)
  | time (t : GoTime)
  | int (i : Int)
  | float (x : F)
  | named (v : Arg F)
  | nullBool (b : Option Bool)
  | nullFloat (x : Option F)
  | nullInt (i : Option Int)
  | nullStr (s : Option Str)
  | nullTime (t : Option GoTime)
  /-- any other `driver.Valuer` and what its method returns (`none`: an error); `onPointer`: the method
  is only that of the pointer, which is the value -/
  | valuer (onPointer : Bool) (v : Option (Arg F))
  /-- a nil pointer to a `driver.Valuer` whose method is that of the type -/
  | nilValuer
  /-- a nil pointer to another type -/
  | nilPtr
  | ptr (v : Arg F)
  /-- a value of a type defined as one of the basic types -/
  | defined (v : Arg F)
  | other

/-- /repo/ddl/sq.go:504-513, 607-619 -/
def boolText (d : Dialect) (b : Bool) : Str :=
  if b then (if d = .sqlserver then b!"1" else b!"TRUE")
  else (if d = .sqlserver then b!"0" else b!"FALSE")

/-- /repo/ddl/sq.go:514-524 -/
def bytesText (d : Dialect) (b : Str) : Str :=
  if d = .postgres then b!"'\\x" ++ hexEncode b ++ b!"'"
  else if d = .sqlserver then b!"0x" ++ hexEncode b
  else b!"x'" ++ hexEncode b ++ b!"'"

/-- Package `time`: the part `.9999999` of a layout -/
def fracText (nano : Nat) : Str :=
  if nano / 100 = 0 then [] else '.' :: ((pad 7 (nano / 100)).reverse.dropWhile (· = '0')).reverse

/-- Package `time`: the part `-07:00` of a layout -/
def zoneText (offset : Int) : Str :=
  (if offset.tdiv 60 < 0 then b!"-" else b!"+") ++ pad 2 ((offset.tdiv 60).natAbs / 60) ++ b!":" ++
    pad 2 ((offset.tdiv 60).natAbs % 60)

/-- /repo/ddl/sq.go:497-500, 574-578, 641-648 -/
def stampText (d : Dialect) (t : GoTime) : Str :=
  if d = .postgres ∨ d = .sqlserver then
    b!"'" ++ timeText t.wall ++ fracText t.wall.nano ++ zoneText t.offset ++ b!"'"
  else b!"'" ++ timeText t.utc ++ b!"'"

/-- What implements `driver.Valuer`: the types of `database/sql`, pointers to them, and others. -/
def Arg.isValuer {F} : Arg F → Bool
  | .nullBool _ | .nullFloat _ | .nullInt _ | .nullStr _ | .nullTime _ | .valuer _ _ | .nilValuer => true
  | .ptr (.nullBool _) | .ptr (.nullFloat _) | .ptr (.nullInt _) | .ptr (.nullStr _)
  | .ptr (.nullTime _) | .ptr (.valuer false _) => true
  | _ => false

/-- /repo/ddl/sq.go:655: the types that a `driver.Valuer` may return -/
def Arg.isDriverValue {F} : Arg F → Bool
  | .null | .bool _ | .bytes _ | .str _ | .time _ | .int _ | .float _ => true
  | _ => false

/-- /repo/ddl/sq.go:668-676: whether what a pointer points to has a literal -/
def Arg.isListed {F} : Arg F → Bool
  | .bool _ | .bytes _ | .str _ | .time _ | .int _ | .float _ | .named _ => true
  | v => v.isValuer

/-- /repo/ddl/sq.go:496-677 `Sprint`.  A pointer to one of the types of `database/sql` is a
`driver.Valuer`, whose literal is that of what it points to. -/
def sprint {F} (fl : Floats F) (d : Dialect) : Arg F → Res
  | .null => .ok b!"NULL"
  | .bool b => .ok (boolText d b)
  | .bytes b => .ok (bytesText d (b.getD []))
  | .str s => .ok (sprintString d s)
  | .time t => .ok (stampText d t)
  | .int i => .ok (formatInt i)
  | .float x => .ok (fl.fmtG x)
  | .named v => sprint fl d v
  | .nullBool b => .ok (b.elim b!"NULL" (boolText d))
  | .nullFloat x => .ok (x.elim b!"NULL" fl.fmtG)
  | .nullInt i => .ok (i.elim b!"NULL" formatInt)
  | .nullStr s => .ok (s.elim b!"NULL" (sprintString d))
  | .nullTime t => .ok (t.elim b!"NULL" (stampText d))
  | .valuer _ none => .error
  | .valuer _ (some v) => if v.isDriverValue then sprint fl d v else .error
  | .nilValuer => .panic
  | .nilPtr => .ok b!"NULL"
  | .ptr v => if v.isListed then sprint fl d v else .error
  | .defined _ => .error
  | .other => .error

/-! ## `Timestamp` -/

/-- A `time.Time` as the instant that it is: seconds since 1970 in UTC and nanoseconds. -/
structure Instant where
  sec : Int
  nano : Nat := 0
deriving DecidableEq, Repr

/-- Multiplication of `int64`. -/
def mul64 (a b : Int) : Int := (a * b + 2 ^ 63) % 2 ^ 64 - 2 ^ 63

/-- `time.Unix(0, nsec)` -/
def ofNano (n : Int) : Instant := ⟨n.fdiv (10 ^ 9), (n.fmod (10 ^ 9)).toNat⟩

/-- A value of a driver: nil, an integer, text (`string` or `[]byte`), a time, or something else. -/
inductive Source
  | null
  | int (i : Int)
  | text (s : Str)
  | time (t : Instant)
  | other
deriving DecidableEq, Repr

/-- /repo/ddl/sq.go:260-270 `timestampFormats` -/
def timestampFormats : List Str :=
  [b!"2006-01-02 15:04:05.999999999-07:00", b!"2006-01-02T15:04:05.999999999-07:00",
   b!"2006-01-02 15:04:05.999999999", b!"2006-01-02T15:04:05.999999999", b!"2006-01-02 15:04:05",
   b!"2006-01-02T15:04:05", b!"2006-01-02 15:04", b!"2006-01-02T15:04", b!"2006-01-02"]

/-- /repo/ddl/sq.go:287-350 `(*Timestamp).Scan`: the time, `some none` if it is not valid; `none` is an
error.  `parse` is `time.ParseInLocation` in UTC.  `sql.NullTime.Scan` accepts a `time.Time` only. -/
def scanTimestamp (parse : Str → Str → Option Instant) : Source → Option (Option Instant)
  | .null => some none
  | .int v =>
    if v > 10 ^ 12 ∨ v < -10 ^ 12 then some (some (ofNano (mul64 v (10 ^ 6))))
    else some (some ⟨v, 0⟩)
  | .text s =>
    if s = [] then some none
    else (timestampFormats.findSome? fun f => parse f (trimSuffix s b!"Z")).map some
  | .time t => some (some t)
  | .other => none

/-- /repo/ddl/sq.go:355-363 `Timestamp.Value` -/
def timestampValue (d : Dialect) : Option Instant → Source
  | none => .null
  | some t => if d = .sqlite then .int t.sec else .time t

end Sqddl.Sprint
