import Verif.Spec.Csv
import Verif.Model.DumpCsv

/-!
# Values of columns, and what a database makes of the parameters of an INSERT

`Value` is what a driver returns for a column, `Param` what `load` passes to an INSERT.
-/

namespace CsvSpec
open Go Sqddl.DumpCsv

/-! ## Postgres, MySQL and SQL Server: columns have one kind of values -/

/-- The kinds of columns. -/
inductive Kind
  | int | bool | float | decimal | text | bytes | timestamp | date | uuid
deriving DecidableEq, Repr

/-- The kind of a column by the name of its type (without arguments); `none` for the types that are
not described: TIME, TIMETZ, BIT, VARBIT, DATETIMEOFFSET, UNIQUEIDENTIFIER, and everything that is
special to MySQL or SQL Server.  The values of other types of Postgres (enums, intervals, arrays, …)
travel as the text that Postgres itself writes and reads. -/
def kind (d : Dialect) (n : Str) : Option Kind :=
  if n ∈ [b!"TINYINT", b!"SMALLINT", b!"MEDIUMINT", b!"INT", b!"BIGINT"] then some .int
  else if d = .postgres ∧ n = b!"BOOLEAN" ∨ d = .sqlserver ∧ n = b!"BIT" then some .bool
  else if n ∈ [b!"REAL", b!"DOUBLE PRECISION", b!"FLOAT", b!"DOUBLE"] then some .float
  else if n = b!"NUMERIC" then some .decimal
  else if n ∈ [b!"BYTEA", b!"BINARY", b!"VARBINARY", b!"TINYBLOB", b!"BLOB", b!"MEDIUMBLOB",
      b!"LONGBLOB"] then some .bytes
  else if n ∈ [b!"TIMESTAMP", b!"TIMESTAMPTZ", b!"DATETIME", b!"DATETIME2", b!"SMALLDATETIME"] then
    some .timestamp
  else if n = b!"DATE" then some .date
  else if d = .postgres ∧ n = b!"UUID" then some .uuid
  else if n ∈ [b!"TINYTEXT", b!"TEXT", b!"MEDIUMTEXT", b!"LONGTEXT", b!"CHAR", b!"VARCHAR", b!"NCHAR",
      b!"NVARCHAR", b!"JSON"] then some .text
  else if d = .postgres ∧ n ∉ [b!"TIME", b!"TIMETZ", b!"BIT", b!"VARBIT", b!"DATETIMEOFFSET",
      b!"INTEGER"] then some .text
  else none

/-- A date and time of the calendar (not all of the conditions of a calendar). -/
def IsTime (t : Time) : Prop :=
  t.year < 10000 ∧ t.month < 100 ∧ t.day < 100 ∧ t.hour < 100 ∧ t.minute < 100 ∧ t.second < 100

instance (t : Time) : Decidable (IsTime t) := inferInstanceAs (Decidable (_ ∧ _))

/-- lower case hexadecimal digits -/
def LowerHex (s : Str) : Prop := ∀ c ∈ s, c ∈ b!"0123456789abcdef"

instance (s : Str) : Decidable (LowerHex s) := inferInstanceAs (Decidable (∀ c ∈ s, _))

/-- The text of a UUID as Postgres writes it. -/
def IsUuid (s : Str) : Prop := ∃ a b c d e, s = a ++ '-' :: (b ++ '-' :: (c ++ '-' :: (d ++ '-' :: e))) ∧
  a.length = 8 ∧ b.length = 4 ∧ c.length = 4 ∧ d.length = 4 ∧ e.length = 12 ∧
  LowerHex a ∧ LowerHex b ∧ LowerHex c ∧ LowerHex d ∧ LowerHex e

/-- Every character stands for a byte. -/
def Bytes (s : Str) : Prop := ∀ c ∈ s, c.toNat < 256

instance (s : Str) : Decidable (Bytes s) := inferInstanceAs (Decidable (∀ c ∈ s, _))

/-- The values of a kind that are not NULL, as the driver returns them. -/
def Holds {F} : Kind → Value F → Prop
  | .int, .int i => -2 ^ 63 ≤ i ∧ i < 2 ^ 63
  | .bool, .bool _ => True
  | .float, .float _ => True
  | .decimal, .str _ => True
  | .text, .str _ => True
  | .bytes, .bytes b => Bytes b
  | .timestamp, .time t => IsTime t
  | .date, .time t => IsTime t ∧ t.hour = 0 ∧ t.minute = 0 ∧ t.second = 0 ∧ t.nano = 0
  | .uuid, .str s => IsUuid s
  | _, _ => False

/-- The number in the characters `i` to `i + n` of a text. -/
def number (s : Str) (i n : Nat) : Option Nat :=
  if ((s.drop i).take n).length = n ∧ ((s.drop i).take n).all isDigit then
    some (Nat.ofDigitChars 10 ((s.drop i).take n) 0)
  else none

/-- The time in a text of the form `2006-01-02 15:04:05`. -/
def readTime (s : Str) : Option Time :=
  if s.length = 19 ∧ s[4]? = some '-' ∧ s[7]? = some '-' ∧ s[10]? = some ' ' ∧ s[13]? = some ':' ∧
      s[16]? = some ':' then
    (number s 0 4).bind fun y => (number s 5 2).bind fun mo => (number s 8 2).bind fun da =>
    (number s 11 2).bind fun h => (number s 14 2).bind fun mi => (number s 17 2).map fun se =>
      ⟨y, mo, da, h, mi, se, 0⟩
  else none

/-- What a database stores for a parameter in a column, as the driver will return it; `none` if it
refuses the parameter (or if nothing is said about it). -/
def input {F} (parse : Str → Option F) : Kind → Param → Option (Value F)
  | _, .null => some .null
  | .int, .str s => (parseInt64 s).map .int
  | .bool, .str s => if s = b!"1" then some (.bool true) else if s = b!"0" then some (.bool false) else none
  | .float, .str s => (parse s).map .float
  | .decimal, .str s => some (.str s)
  | .text, .str s => some (.str s)
  | .bytes, .bytes b => some (.bytes b)
  | .bytes, .str s => some (.bytes s)
  | .timestamp, .str s => (readTime s).map .time
  | .date, .str s => (readTime s).map fun t => .time ⟨t.year, t.month, t.day, 0, 0, 0, 0⟩
  | .uuid, .str s => some (.str s)
  | _, _ => none

/-- Numbers are written as text that is read as the same number, and has no carriage returns. -/
structure Exact {F} (fl : Floats F) : Prop where
  parseF : ∀ x, fl.parse (fl.fmtF x) = some x
  parseG : ∀ x, fl.parse (fl.fmtG x) = some x
  cleanF : ∀ x, '\r' ∉ fl.fmtF x
  cleanG : ∀ x, '\r' ∉ fl.fmtG x

/-- The values that a CSV file can hold: text without Windows line ends; times without fractions of a
second; decimal numbers that are the shortest ones for the nearest floating point number. -/
def Plain {F} (fl : Floats F) : Kind → Value F → Prop
  | .text, .str s => UnixText s
  | .timestamp, .time t => t.nano = 0
  | .decimal, .str s => ∃ x, fl.parse s = some x ∧ fl.fmtF x = s
  | _, _ => True

/-! ## SQLite: a column has an affinity, a value its own type -/

/-- The affinities; INTEGER and NUMERIC behave alike here. -/
inductive Affinity
  | number | real | text | blob
deriving DecidableEq, Repr

/-- The affinity of a column by the name of its type (sqlite.org/datatype3.html, 3.1). -/
def affinity (n : Str) : Affinity :=
  let has (w : Str) : Bool := (List.range (n.length + 1)).any fun i => w.isPrefixOf (n.drop i)
  if has b!"INT" then .number
  else if has b!"CHAR" || has b!"CLOB" || has b!"TEXT" then .text
  else if has b!"BLOB" || n = [] then .blob
  else if has b!"REAL" || has b!"FLOA" || has b!"DOUB" then .real
  else .number

/-- What SQLite stores; `toNumber` gives the number that a text stands for. -/
def store {F} (toNumber : Affinity → Str → Option (Value F)) : Affinity → Param → Value F
  | _, .null => .null
  | _, .bytes b => .bytes b
  | .text, .str s => .str s
  | .blob, .str s => .str s
  | a, .str s => (toNumber a s).getD (.str s)
  | .text, .int i => .str (formatInt i)
  | _, .int i => .int i

/-- The types that are for byte strings. -/
def binaries : List Str :=
  b!"UUID" :: [b!"BYTEA", b!"VARBIT", b!"BINARY", b!"VARBINARY", b!"TINYBLOB", b!"BLOB", b!"MEDIUMBLOB",
    b!"LONGBLOB"]

/-- The usual values of a column: numbers and text that is no number, text, or byte strings. -/
def Usual {F} (fl : Floats F) (toNumber : Affinity → Str → Option (Value F)) (n : Str) : Value F → Prop
  | .int i => affinity n = .number ∧ toNumber .number (formatInt i) = some (.int i) ∧ n ∉ binaries
  | .float x => (affinity n = .number ∨ affinity n = .real) ∧
      toNumber (affinity n) (fl.fmtG x) = some (.float x) ∧ '\r' ∉ fl.fmtG x ∧ n ∉ binaries
  | .str s => UnixText s ∧ (affinity n = .text ∨ toNumber (affinity n) s = none) ∧
      (n = b!"UUID" → s.length ≠ 16) ∧
      n ∉ [b!"BINARY", b!"VARBINARY", b!"TINYBLOB", b!"BLOB", b!"MEDIUMBLOB", b!"LONGBLOB"]
  | .bytes b => Bytes b ∧ (n = b!"UUID" ∧ b.length = 16 ∨
      n ∈ [b!"BINARY", b!"VARBINARY", b!"TINYBLOB", b!"BLOB", b!"MEDIUMBLOB", b!"LONGBLOB"])
  | _ => False

end CsvSpec
