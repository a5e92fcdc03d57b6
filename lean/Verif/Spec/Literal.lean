import Verif.Spec.CsvValues
import Verif.Spec.Sql
import Verif.Model.Sprint

/-!
# The values of literals

How the literals of a value are read, by the reference manuals of the databases, and which value an
argument is for package `database/sql`.  Of the model only its data types are used.
-/

namespace LiteralSpec
open Go Sqddl Sqddl.DumpCsv Sqddl.Sprint CsvSpec

/-! ## Instants -/

/-- The days from 1970-01-01 to a date of the Gregorian calendar; a year starts in March here. -/
def days (year month day : Nat) : Int :=
  let y : Int := if month ≤ 2 then year - 1 else year
  let m : Nat := if month ≤ 2 then month + 9 else month - 3
  365 * y + y / 4 - y / 100 + y / 400 + ((153 * m + 2) / 5 : Nat) + day - 1 - 719468

/-- The seconds from 1970-01-01 00:00:00 to a time, both on clocks that show the same at any moment. -/
def seconds (t : Time) : Int :=
  86400 * days t.year t.month t.day + 3600 * t.hour + 60 * t.minute + t.second

/-- The instant at which a clock shows `t`, `offset` seconds east of UTC. -/
def instant (t : Time) (offset : Int) : Instant := ⟨seconds t - offset, t.nano⟩

/-- What package `time` guarantees for a time between the years 0 and 9999. -/
structure Sound (t : GoTime) : Prop where
  wall : IsTime t.wall
  utc : IsTime t.utc
  nano : t.wall.nano < 10 ^ 9
  offset : t.offset.natAbs < 100 * 3600
  same : instant t.wall t.offset = instant t.utc 0

instance (t : GoTime) : Decidable (Sound t) :=
  decidable_of_iff (IsTime t.wall ∧ IsTime t.utc ∧ t.wall.nano < 10 ^ 9 ∧ t.offset.natAbs < 100 * 3600 ∧
      instant t.wall t.offset = instant t.utc 0)
    ⟨fun ⟨a, b, c, d, e⟩ => ⟨a, b, c, d, e⟩, fun h => ⟨h.1, h.2, h.3, h.4, h.5⟩⟩

/-- The instant that a time is. -/
def at_ (t : GoTime) : Instant := instant t.utc 0

/-! ## Reading -/

/-- A whole number: digits, with or without `-`. -/
def readInt : Str → Option Int
  | '-' :: r => if r ≠ [] ∧ r.all isDigit then some (-(Nat.ofDigitChars 10 r 0 : Int)) else none
  | r => if r ≠ [] ∧ r.all isDigit then some (Nat.ofDigitChars 10 r 0) else none

/-- The value of a hexadecimal digit. -/
def hexDigitValue (c : Char) : Option Nat :=
  if '0' ≤ c ∧ c ≤ '9' then some (c.toNat - '0'.toNat)
  else if 'a' ≤ c ∧ c ≤ 'f' then some (c.toNat - 'a'.toNat + 10)
  else if 'A' ≤ c ∧ c ≤ 'F' then some (c.toNat - 'A'.toNat + 10)
  else none

/-- Bytes as pairs of hexadecimal digits. -/
def readHex : Str → Option Str
  | [] => some []
  | a :: b :: r => (hexDigitValue a).bind fun x => (hexDigitValue b).bind fun y =>
      (readHex r).map (Char.ofNat (16 * x + y) :: ·)
  | [_] => none

/-- The offset from UTC, `+hh:mm` or `-hh:mm`, in seconds. -/
def readZone (s : Str) : Option Int :=
  if s.length = 6 ∧ s[3]? = some ':' then
    (number s 1 2).bind fun h => (number s 4 2).bind fun m =>
      if s[0]? = some '+' then some (h * 3600 + m * 60)
      else if s[0]? = some '-' then some (-(h * 3600 + m * 60))
      else none
  else none

/-- A fraction of a second, `.` and at most nine digits, in nanoseconds, and the rest. -/
def readFraction (s : Str) : Option (Nat × Str) :=
  match s with
  | '.' :: r =>
    let f := r.takeWhile isDigit
    if f = [] ∨ 9 < f.length then none
    else some (Nat.ofDigitChars 10 f 0 * 10 ^ (9 - f.length), r.dropWhile isDigit)
  | r => some (0, r)

/-- The instant of a text `2006-01-02 15:04:05`, with or without fraction and offset from UTC. A text
without offset is in UTC. -/
def readStamp (s : Str) : Option Instant :=
  (readTime (s.take 19)).bind fun t => (readFraction (s.drop 19)).bind fun f =>
    (if f.2 = [] then some 0 else readZone f.2).map fun z => instant { t with nano := f.1 } z

/-- The values of SQL. -/
inductive Val (F : Type)
  | null
  | bool (b : Bool)
  | int (i : Int)
  | float (x : F)
  | bytes (b : Str)
  | text (s : Str)
  | time (t : Instant)
deriving DecidableEq, Repr

/-- The types that a literal is read as. -/
inductive Kind
  | bool | int | float | bytes | text | time
deriving DecidableEq, Repr

/-- A value has a type; NULL has all. -/
def IsKind {F} : Val F → Kind → Prop
  | .null, _ => True
  | .bool _, .bool => True
  | .int _, .int => True
  | .float _, .float => True
  | .bytes _, .bytes => True
  | .text _, .text => True
  | .time _, .time => True
  | _, _ => False

/-- Characters of numbers: a literal starts with a digit or a sign. -/
def NumberText (s : Str) : Prop :=
  s.head?.any (fun c => isDigit c || c = '-') = true ∧ ∀ c ∈ s, isDigit c ∨ c ∈ ['-', '+', '.', 'e']

instance (s : Str) : Decidable (NumberText s) := inferInstanceAs (Decidable (_ ∧ _))

/-- The value of a literal of a type in a dialect; `none` if it is not one. `parse` reads numbers.  In
SQLite a whole number outside of 64 bits is a floating point number.  In SQL Server a string without the
prefix `N` goes through the code page of the database, which keeps ASCII. -/
def readLiteral {F} (parse : Str → Option F) (d : Dialect) (k : Kind) (s : Str) : Option (Val F) :=
  if s = b!"NULL" then some .null
  else match k with
    | .bool =>
      if s = (if d = .sqlserver then b!"1" else b!"TRUE") then some (.bool true)
      else if s = (if d = .sqlserver then b!"0" else b!"FALSE") then some (.bool false)
      else none
    | .int => (readInt s).bind fun i =>
      if d = .sqlite ∧ ¬ (-2 ^ 63 ≤ i ∧ i < 2 ^ 63) then none else some (.int i)
    | .float => if NumberText s then (parse s).map .float else none
    | .bytes =>
      if d = .postgres then
        (SqlSpec.evalString d s).bind fun t => match t with
          | '\\' :: 'x' :: r => (readHex r).map .bytes
          | _ => none
      else if d = .sqlserver then match s with
        | '0' :: 'x' :: r => (readHex r).map .bytes
        | _ => none
      else match s with
        | 'x' :: '\'' :: r => if r.getLast? = some '\'' then (readHex r.dropLast).map .bytes else none
        | _ => none
    | .text => (SqlSpec.evalString d s).bind fun t =>
      if d = .sqlserver ∧ ¬ (∀ c ∈ t, c.toNat < 128) then none else some (.text t)
    | .time => (SqlSpec.evalString d s).bind fun t => (readStamp t).map .time

/-! ## Arguments -/

/-- The value that `database/sql` passes on for an argument (`driver.DefaultParameterConverter`,
`callValuerValue`); `none`: it refuses the argument.  A nil slice is NULL in the drivers. -/
def valueOf {F} : Arg F → Option (Val F)
  | .null => some .null
  | .bool b => some (.bool b)
  | .bytes b => some (b.elim .null .bytes)
  | .str s => some (.text s)
  | .time t => some (.time (at_ t))
  | .int i => some (.int i)
  | .float x => some (.float x)
  | .named v => valueOf v
  | .nullBool b => some (b.elim .null .bool)
  | .nullFloat x => some (x.elim .null .float)
  | .nullInt i => some (i.elim .null .int)
  | .nullStr s => some (s.elim .null .text)
  | .nullTime t => some (t.elim .null fun t => .time (at_ t))
  | .valuer _ none => none
  | .valuer _ (some v) => if v.isDriverValue then valueOf v else none
  | .nilValuer => some .null
  | .nilPtr => some .null
  | .ptr v => valueOf v
  | .defined v => valueOf v
  | .other => none

/-- The strings for which a literal is right (see C22). -/
def TextOk (d : Dialect) (s : Str) : Prop :=
  (d = .mysql → '\\' ∉ s) ∧
  (d = .sqlserver → (∀ c ∈ s, c.toNat < 128) ∧ ((∃ c ∈ s, c = '\r' ∨ c = '\n') →
    2 ≤ SqlSpec.operandCount s ∧ SqlSpec.operandCount s ≤ 254))

/-- The times for which a literal is right. -/
def TimeOk (d : Dialect) (t : GoTime) : Prop :=
  Sound t ∧ if d = .postgres ∨ d = .sqlserver then 100 ∣ t.wall.nano ∧ 60 ∣ t.offset else t.utc.nano = 0

/-- The whole numbers for which a literal is right. -/
def IntOk (d : Dialect) (i : Int) : Prop := d = .sqlite → -2 ^ 63 ≤ i ∧ i < 2 ^ 63

/-- The floating point numbers for which a literal is right: not the infinities and NaN. -/
def FloatOk {F} (fl : Floats F) (x : F) : Prop := NumberText (fl.fmtG x) ∧ fl.parse (fl.fmtG x) = some x

/-- The arguments for which the literal is right: all but the exceptions above, and no nil slices. -/
def ArgOk {F} (fl : Floats F) (d : Dialect) : Arg F → Prop
  | .bytes none => False
  | .bytes (some b) => Bytes b
  | .str s | .nullStr (some s) => TextOk d s
  | .time t | .nullTime (some t) => TimeOk d t
  | .int i | .nullInt (some i) => IntOk d i
  | .float x | .nullFloat (some x) => FloatOk fl x
  | .named v | .ptr v | .valuer _ (some v) => ArgOk fl d v
  | _ => True

/-- The arguments that have a literal: values, and pointers to them. -/
def Direct {F} : Arg F → Prop
  | .named v => Direct v
  | .valuer _ (some v) => v.isDriverValue
  | .ptr v => Direct v ∧ (∀ w, v ≠ .ptr w) ∧ v ≠ .null ∧ v ≠ .nilPtr
  | .valuer _ none | .nilValuer | .defined _ | .other => False
  | _ => True

end LiteralSpec
