import Verif.Spec.Literal
import Verif.Model.SubsetQuery

/-!
# Reading the rows of `VALUES`

The list of rows after `VALUES` is read token by token; a field is a string literal, a hexadecimal
string, or a word or number.  Nothing of the functions of the model is used.
-/

namespace SubsetQuerySpec
open Go Sqddl Sqddl.SubsetQuery LiteralSpec

/-- A field: the text of the literal, and the rest. -/
def readField (d : Dialect) (s : Str) : Option (Str × Str) :=
  match s with
  | '\'' :: r => (SqlSpec.readString d r).map fun p => (s.take (s.length - p.2.length), p.2)
  | 'x' :: '\'' :: r => (SqlSpec.readQuoted '\'' r).map fun p => (s.take (s.length - p.2.length), p.2)
  | _ =>
    let w := s.takeWhile fun c => SqlSpec.wordChar c || c ∈ ['-', '+', '.']
    if w = [] then none else some (w, s.drop w.length)

/-- The fields of a row after its opening parenthesis, up to the closing one. -/
def readFields (d : Dialect) : Nat → Str → Option (List Str × Str)
  | 0, _ => none
  | n + 1, s => (readField d s).bind fun p =>
    match p.2 with
    | ')' :: r => some ([p.1], r)
    | ',' :: ' ' :: r => (readFields d n r).map fun q => (p.1 :: q.1, q.2)
    | _ => none

/-- A row: in MySQL `ROW(...)`, otherwise `(...)`. -/
def readRow (d : Dialect) (s : Str) : Option (List Str × Str) :=
  let open_ := if d = .mysql then b!"ROW(" else b!"("
  if open_.isPrefixOf s then readFields d s.length (s.drop open_.length) else none

/-- Rows, separated by commas, until something else follows. There is at least one. -/
def readRows (d : Dialect) : Nat → Str → Option (List (List Str) × Str)
  | 0, _ => none
  | n + 1, s => (readRow d s).bind fun p =>
    match p.2.dropWhile fun c => c = ' ' ∨ c = '\n' with
    | ',' :: r => (readRows d n r).map fun q => (p.1 :: q.1, q.2)
    | _ => some ([p.1], p.2)

/-- The value of a field of a primary key. -/
def keyValue {F} : Key F → Val F
  | .null => .null
  | .bytes b => .bytes b
  | .bool b => .bool b
  | .float x => .float x
  | .int i => .int i
  | .str s => .text s
  | .time t => .time (instant t 0)

/-- With which literals the values of a column are compared: the normalised type of a column of a
primary key; for Postgres see `pgEquals`. -/
def keyKind (d : Dialect) (ty : Str) : Option Kind :=
  if ty ∈ [b!"BYTEA", b!"BINARY", b!"VARBINARY", b!"TINYBLOB", b!"BLOB", b!"MEDIUMBLOB", b!"LONGBLOB"] then
    if d = .postgres then none else some .bytes
  else if ty = b!"BOOLEAN" ∨ ty = b!"BIT" ∧ d = .sqlserver then some .bool
  else if ty ∈ [b!"REAL", b!"DOUBLE PRECISION"] ∨ ty = b!"FLOAT" ∧ d ≠ .postgres then some .float
  else if ty ∈ [b!"SMALLINT", b!"INT", b!"INTEGER", b!"BIGINT"] ∨
      ty ∈ [b!"TINYINT", b!"MEDIUMINT"] ∧ d ≠ .postgres then some .int
  else if ty ∈ [b!"TEXT", b!"CHAR", b!"VARCHAR"] ∨
      ty ∈ [b!"TINYTEXT", b!"MEDIUMTEXT", b!"LONGTEXT", b!"NVARCHAR"] ∧ d ≠ .postgres then some .text
  else if ty ∈ [b!"DATE", b!"DATETIME", b!"DATETIME2", b!"SMALLDATETIME", b!"TIMESTAMP"] then
    if d = .postgres then none else some .time
  else if ty ∈ [b!"UUID", b!"UNIQUEIDENTIFIER"] then if d = .postgres then none else some .text
  else none

/-- Postgres: whether `column = literal` has an operator, where the literal stands in a `VALUES` list:
a string literal is a `text`, TRUE and FALSE are booleans, everything else but NULL is a number.  NULL is
a `text`, too. -/
def pgEquals (ty literal : Str) : Bool :=
  if literal.head? = some '\'' ∨ literal = b!"NULL" then ty ∈ [b!"TEXT", b!"CHAR", b!"VARCHAR"]
  else if literal = b!"TRUE" ∨ literal = b!"FALSE" then ty = b!"BOOLEAN"
  else ty ∈ [b!"SMALLINT", b!"INT", b!"INTEGER", b!"BIGINT", b!"NUMERIC", b!"REAL", b!"DOUBLE PRECISION"]

/-- The value of a column of a kind for which a driver returns `v`: MySQL's gives numbers as bytes, and
0 and 1 for booleans.  Times are given to the second. -/
def meant {F} (fl : Sqddl.DumpCsv.Floats F) : Kind → Sqddl.DumpCsv.Value F → Option (Val F)
  | _, .null => some .null
  | .bytes, .bytes b => some (.bytes b)
  | .bool, .bool b => some (.bool b)
  | .bool, .int i => if i = 0 then some (.bool false) else if i = 1 then some (.bool true) else none
  | .float, .float x => some (.float x)
  | .float, .bytes s => (fl.parse s).map .float
  | .int, .int i => some (.int i)
  | .int, .bytes s => (readInt s).bind fun i => if -2 ^ 63 ≤ i ∧ i < 2 ^ 63 then some (.int i) else none
  | .text, .str s => some (.text s)
  | .text, .bytes s => some (.text s)
  | .time, .time t => if CsvSpec.IsTime t ∧ t.nano = 0 then some (.time (instant t 0)) else none
  | _, _ => none

/-- SQLite: values are of kinds, not columns; the value is that which the driver returns.  The types
of columns for which the driver converts values are not here. -/
def sqliteMeant {F} (ty : Str) : Sqddl.DumpCsv.Value F → Option (Kind × Val F)
  | .null => some (.text, .null)
  | .bytes b =>
    if ty ∈ [b!"BINARY", b!"VARBINARY", b!"TINYBLOB", b!"BLOB", b!"MEDIUMBLOB", b!"LONGBLOB"] ∨
      ty = b!"UUID" ∧ b.length = 16 then some (.bytes, .bytes b) else none
  | .int i =>
    if ty ∈ [b!"TINYINT", b!"SMALLINT", b!"MEDIUMINT", b!"INT", b!"INTEGER", b!"BIGINT", b!"NUMERIC"] ∧
      -2 ^ 63 ≤ i ∧ i < 2 ^ 63 then some (.int, .int i) else none
  | .float x =>
    if ty ∈ [b!"NUMERIC", b!"FLOAT", b!"REAL", b!"DOUBLE PRECISION"] then some (.float, .float x) else none
  | .str s => if ty ∈ [b!"TEXT", b!"CHAR", b!"VARCHAR", b!"NVARCHAR", b!"JSON"] then some (.text, .text s) else none
  | _ => none

/-- The kind of a field of a primary key and its value. -/
def want {F} (fl : Sqddl.DumpCsv.Floats F) (d : Dialect) (ty : Str) (v : Sqddl.DumpCsv.Value F) :
    Option (Kind × Val F) :=
  if d = .sqlite then sqliteMeant ty v else (keyKind d ty).bind fun k => (meant fl k v).map fun w => (k, w)

/-- The values for which the literal is right. -/
def ValOk {F} (fl : Sqddl.DumpCsv.Floats F) (d : Dialect) : Val F → Prop
  | .bytes b => CsvSpec.Bytes b
  | .text s => ¬ SqlSpec.HasInnerPair '\'' s ∧ (d = .mysql → '\\' ∉ s) ∧ (d = .sqlserver → ∀ c ∈ s, c.toNat < 128)
  | .float x =>
    let s := if d = .sqlite then fl.fmtG x else fl.fmtF x
    NumberText s ∧ fl.parse s = some x
  | _ => True

/-- `w` are the kinds and values of a row of the primary key. -/
def IsRow {F} (fl : Sqddl.DumpCsv.Floats F) (d : Dialect) :
    List Str → List (Sqddl.DumpCsv.Value F) → List (Kind × Val F) → Prop
  | [], [], [] => True
  | ty :: tys, v :: vs, w :: ws => want fl d ty v = some w ∧ ValOk fl d w.2 ∧ IsRow fl d tys vs ws
  | _, _, _ => False

/-- The same for the rows. -/
def AreRows {F} (fl : Sqddl.DumpCsv.Floats F) (d : Dialect) (tys : List Str) :
    List (List (Sqddl.DumpCsv.Value F)) → List (List (Kind × Val F)) → Prop
  | [], [] => True
  | r :: rs, w :: ws => IsRow fl d tys r w ∧ AreRows fl d tys rs ws
  | _, _ => False

/-- The literals `f` of a row are those of the values `w`. -/
def ReadsRow {F} (fl : Sqddl.DumpCsv.Floats F) (d : Dialect) : List (Kind × Val F) → List Str → Prop
  | [], [] => True
  | w :: ws, f :: fs => readLiteral fl.parse d w.1 f = some w.2 ∧ ReadsRow fl d ws fs
  | _, _ => False

/-- The same for the rows. -/
def ReadsRows {F} (fl : Sqddl.DumpCsv.Floats F) (d : Dialect) : List (List (Kind × Val F)) → List (List Str) → Prop
  | [], [] => True
  | w :: ws, f :: fs => ReadsRow fl d w f ∧ ReadsRows fl d ws fs
  | _, _ => False

end SubsetQuerySpec
