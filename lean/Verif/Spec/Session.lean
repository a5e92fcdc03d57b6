import Verif.Model.Session
import Verif.Spec.Sql

/-!
# How databases show and read session settings

From the manuals: integer settings are shown and read in decimal.  Postgres shows a time without a
zero with the largest unit that divides it (`5s`, `1min`); a value without quotes after `SET … =`
must be a number (or a word), a value with a unit needs quotes.
-/

namespace SessionSpec
open Sqddl Sqddl.Session

/-- An unsigned decimal number. -/
def readNat (s : Str) : Option Nat :=
  if s ≠ [] ∧ s.all Char.isDigit then some (Nat.ofDigitChars 10 s 0) else none

/-- A signed decimal number. -/
def readInt : Str → Option Int
  | '-' :: r => (readNat r).map fun n => - (n : Int)
  | s => (readNat s).map fun n => (n : Int)

/-- An integer in decimal. -/
def showInt : Int → Str
  | .ofNat n => itoa n
  | .negSucc n => '-' :: itoa (n + 1)

/-- The rest of a text after a given start. -/
def afterStart : Str → Str → Option Str
  | [], s => some s
  | a :: p, b :: s => if a = b then afterStart p s else none
  | _ :: _, [] => none

/-- A setting with integer values, whose statement begins with `start`. -/
def intEngine (start : Str) : Engine Int where
  shown v := some (showInt v)
  assign s := (afterStart start s).bind readInt
  transactional := false
  aborts := false

/-- The units in which Postgres shows times, in milliseconds, largest first. -/
def pgUnits : List (Nat × Str) :=
  [(86400000, b!"d"), (3600000, b!"h"), (60000, b!"min"), (1000, b!"s"), (1, b!"ms")]

/-- A number of milliseconds as `SHOW` returns it. -/
def pgShowMs (n : Nat) : Str :=
  if n = 0 then b!"0"
  else match pgUnits.find? fun u => n % u.1 = 0 with
    | some u => itoa (n / u.1) ++ u.2
    | none => []

/-- A value after `SET lock_timeout = `: a number without quotes, or a string with an optional
unit. -/
def pgReadMs (s : Str) : Option Nat :=
  match s with
  | '\'' :: r =>
    match SqlSpec.readQuoted '\'' r with
    | some (v, []) =>
      let num := v.takeWhile Char.isDigit
      let unit := v.dropWhile Char.isDigit
      if unit = [] then readNat num
      else (pgUnits.find? fun u => u.2 = unit).bind fun u => (readNat num).map (· * u.1)
    | _ => none
  | s => readNat s

/-- `lock_timeout` of Postgres, in milliseconds. -/
def pgLockTimeoutEngine : Engine Nat where
  shown v := some (pgShowMs v)
  assign s := (afterStart b!"SET lock_timeout = " s).bind pgReadMs
  transactional := true
  aborts := true

/-- `timezone` of Postgres: a name. -/
def pgTimezoneEngine : Engine Str where
  shown v := some v
  assign s := (afterStart b!"SET timezone = '" s).bind fun r =>
    match SqlSpec.readQuoted '\'' r with
    | some (v, []) => some v
    | _ => none
  transactional := true
  aborts := true

/-- Work that leaves the setting and the state of the transaction alone, apart from the abort of
a failed transaction, and only adds calls. -/
def Neutral {V : Type} (body : Conn V → Bool × Conn V) : Prop :=
  ∀ c, (body c).2.value = c.value ∧ (body c).2.saved = c.saved ∧
    (c.saved = none → (body c).2.aborted = c.aborted) ∧
    ∃ more, (body c).2.calls = c.calls ++ more

end SessionSpec
