import Verif.Model.Csv
import Verif.Model.Diff
import Verif.Model.PqArray
import Verif.Model.Files

/-!
# The values of a table in a CSV file: `dumpCSV` and `loadCSV`

/repo/ddl/dump_cmd.go:842-1001, /repo/ddl/load_cmd.go:346-541.  Floating point numbers are of any type
`F` with functions that write and read them.
-/

namespace Sqddl.DumpCsv
open Go

/-- `time.Time` in UTC, for the years 0 to 9999. -/
structure Time where
  year : Nat
  month : Nat
  day : Nat
  hour : Nat := 0
  minute : Nat := 0
  second : Nat := 0
  nano : Nat := 0
deriving DecidableEq, Repr

/-- Package `strconv`: `FormatFloat(x, 'f', -1, 64)`, `FormatFloat(x, 'g', -1, 64)`, `ParseFloat`. -/
structure Floats (F : Type) where
  fmtF : F → Str
  fmtG : F → Str
  parse : Str → Option F

/-- `driver.Value` of package `database/sql/driver`: what a driver returns for a column. -/
inductive Value (F : Type)
  | null
  | int (i : Int)
  | float (x : F)
  | bool (b : Bool)
  | bytes (b : Str)
  | str (s : Str)
  | time (t : Time)
deriving DecidableEq, Repr

/-- The elements of `scanDest`: /repo/ddl/dump_cmd.go:863-904. -/
inductive Dest
  | bytes | bool | float | int | str | time | bools | ints | floats | strings
deriving DecidableEq, Repr

/-- What `rows.Scan` stores in them; `none` is NULL.  A nil and an empty `[]byte` are not
distinguished by what follows. -/
inductive Scanned (F : Type)
  | bytes (b : Str)
  | bool (b : Option Bool)
  | float (x : Option F)
  | int (i : Option Int)
  | str (s : Option Str)
  | time (t : Option Time)
  | bools (xs : Option (List Bool))
  | ints (xs : Option (List Int))
  | floats (xs : Option (List F))
  | strings (xs : Option (List Str))
deriving DecidableEq, Repr

/-- /repo/ddl/dump_cmd.go:27-101: the fields of `DumpCmd` that matter here -/
structure DumpOpts where
  nullstring : Str := []
  binaryprefix : Str := []
  arrayAsJSON : Bool := false
  uuidAsBytes : Bool := false

/-- /repo/ddl/dump_cmd.go:192-197: the defaults -/
def DumpOpts.run (o : DumpOpts) : DumpOpts :=
  { o with
    nullstring := if o.nullstring = [] then b!"\\N" else o.nullstring
    binaryprefix := if o.binaryprefix = [] then b!"0x" else o.binaryprefix }

/-- /repo/ddl/dump_cmd.go:851-858 -/
def columnType (d : Dialect) (t : Str) : Str :=
  let ty := (normType d t).1
  if d = .mysql then
    if hasSuffix ty b!" UNSIGNED" then trimSuffix ty b!" UNSIGNED" else trimSuffix ty b!" SIGNED"
  else ty

/-- /repo/ddl/dump_cmd.go:872-887: the arrays -/
def arrayDest (ty : Str) : Option Dest :=
  if ty = b!"BOOLEAN[]" then some .bools
  else if ty ∈ [b!"SMALLINT[]", b!"INT[]", b!"INTEGER[]", b!"BIGINT[]"] then some .ints
  else if ty ∈ [b!"NUMERIC[]", b!"REAL[]", b!"DOUBLE PRECISION[]"] then some .floats
  else if ty ∈ [b!"VARCHAR[]", b!"CHAR[]", b!"TEXT[]"] then some .strings
  else none

/-- /repo/ddl/dump_cmd.go:889-904 -/
def scalarDest (ty : Str) : Dest :=
  if ty ∈ [b!"BYTEA", b!"BINARY", b!"VARBINARY", b!"TINYBLOB", b!"BLOB", b!"MEDIUMBLOB", b!"LONGBLOB",
      b!"VARBIT"] then .bytes
  else if ty ∈ [b!"BOOLEAN", b!"BIT"] then .bool
  else if ty ∈ [b!"NUMERIC", b!"FLOAT", b!"REAL", b!"DOUBLE PRECISION"] then .float
  else if ty ∈ [b!"TINYINT", b!"SMALLINT", b!"MEDIUMINT", b!"INT", b!"INTEGER", b!"BIGINT"] then .int
  else if ty ∈ [b!"TINYTEXT", b!"TEXT", b!"MEDIUMTEXT", b!"LONGTEXT", b!"CHAR", b!"VARCHAR",
      b!"NVARCHAR", b!"UUID", b!"UNIQUEIDENTIFIER", b!"JSON", b!"JSONB"] then .str
  else if ty ∈ [b!"DATE", b!"TIME", b!"TIMETZ", b!"DATETIME", b!"DATETIME2", b!"SMALLDATETIME",
      b!"DATETIMEOFFSET", b!"TIMESTAMP", b!"TIMESTAMPTZ"] then .time
  else .str

/-- /repo/ddl/dump_cmd.go:860-904: where a column is scanned to -/
def dest (d : Dialect) (o : DumpOpts) (ty : Str) : Dest :=
  if d = .sqlite then (if ty = b!"DATETIME" ∨ ty = b!"TIMESTAMP" then .time else .str)
  else if d = .postgres ∧ o.arrayAsJSON = true then (arrayDest ty).getD (scalarDest ty)
  else scalarDest ty

/-! ## Library: `rows.Scan` -/

/-- `n` with at least `k` digits -/
def pad (k n : Nat) : Str :=
  List.replicate (k - (Nat.toDigits 10 n).length) '0' ++ Nat.toDigits 10 n

/-- `t.Format("2006-01-02")` -/
def dateText (t : Time) : Str := pad 4 t.year ++ b!"-" ++ pad 2 t.month ++ b!"-" ++ pad 2 t.day

/-- `t.Format("15:04:05")` -/
def clockText (t : Time) : Str := pad 2 t.hour ++ b!":" ++ pad 2 t.minute ++ b!":" ++ pad 2 t.second

/-- `t.UTC().Format("2006-01-02 15:04:05")`: /repo/ddl/dump_cmd.go:974 -/
def timeText (t : Time) : Str := dateText t ++ b!" " ++ clockText t

/-- `t.Format(time.RFC3339Nano)` -/
def rfc3339 (t : Time) : Str :=
  dateText t ++ b!"T" ++ clockText t ++
  (if t.nano = 0 then []
   else '.' :: ((pad 9 t.nano).reverse.dropWhile (· = '0')).reverse) ++ b!"Z"

/-- `strconv.ParseBool` -/
def parseBool (s : Str) : Option Bool :=
  if s ∈ [b!"1", b!"t", b!"T", b!"true", b!"TRUE", b!"True"] then some true
  else if s ∈ [b!"0", b!"f", b!"F", b!"false", b!"FALSE", b!"False"] then some false
  else none

/-- `asString` of `database/sql`; `none` where a time is not converted this way -/
def asString {F} (fl : Floats F) : Value F → Option Str
  | .int i => some (formatInt i)
  | .float x => some (fl.fmtG x)
  | .bool b => some (if b then b!"true" else b!"false")
  | .bytes b => some b
  | .str s => some s
  | _ => none

/-- An array of package `pqarray`: /repo/internal/pqarray/pqarray.go:88-100, 514-526, 638-650 -/
def scanArray {F α} (scan : Str → PqArray.Scan (List α)) (mk : Option (List α) → Scanned F) :
    Value F → Option (Scanned F)
  | .null => some (mk none)
  | .bytes s | .str s =>
    match scan s with
    | .ok xs => some (mk (some xs))
    | _ => none
  | _ => none

/-- `rows.Scan` (/repo/ddl/dump_cmd.go:916), `convertAssign` of `database/sql`; `none` is an error.
A panic of package `pqarray` counts as an error here. -/
def scan {F} (fl : Floats F) (k : Dest) (v : Value F) : Option (Scanned F) :=
  match k with
  | .bytes => match v with
    | .null => some (.bytes [])
    | .time t => some (.bytes (rfc3339 t))
    | v => (asString fl v).map .bytes
  | .bool => match v with
    | .null => some (.bool none)
    | .bool b => some (.bool (some b))
    | .int i => if i = 0 then some (.bool (some false)) else if i = 1 then some (.bool (some true)) else none
    | .bytes s | .str s => (parseBool s).map fun b => .bool (some b)
    | _ => none
  | .float => match v with
    | .null => some (.float none)
    | .float x => some (.float (some x))
    | v => (asString fl v).bind fun s => (fl.parse s).map fun x => .float (some x)
  | .int => match v with
    | .null => some (.int none)
    | .int i => some (.int (some i))
    | v => (asString fl v).bind fun s => (parseInt64 s).map fun i => .int (some i)
  | .str => match v with
    | .null => some (.str none)
    | .time t => some (.str (some (rfc3339 t)))
    | v => (asString fl v).map fun s => .str (some s)
  | .time => match v with
    | .null => some (.time none)
    | .time t => some (.time (some t))
    | _ => none
  | .bools => scanArray PqArray.scanBools .bools v
  | .ints => scanArray PqArray.scanInts .ints v
  | .floats => scanArray (PqArray.scanLinear fun x => fl.parse (x.getD [])) .floats v
  | .strings => scanArray PqArray.scanStrings .strings v

/-! ## dump -/

/-- `json.Marshal` of a byte of a string; of the escapes for characters outside of ASCII (invalid
UTF-8, U+2028, U+2029) none is modelled. -/
def jsonChar (c : Char) : Str :=
  if c = '"' then b!"\\\"" else if c = '\\' then b!"\\\\"
  else if c = '\n' then b!"\\n" else if c = '\r' then b!"\\r" else if c = '\t' then b!"\\t"
  else if c.toNat < 0x20 ∨ c = '<' ∨ c = '>' ∨ c = '&' then
    b!"\\u00" ++ [hexDigit (c.toNat / 16), hexDigit (c.toNat % 16)]
  else [c]

/-- `json.Marshal` of a string -/
def jsonString (s : Str) : Str := b!"\"" ++ s.flatMap jsonChar ++ b!"\""

/-- `json.Marshal` of a slice; nil is `null` -/
def jsonArray {α} (f : α → Str) : Option (List α) → Str
  | none => b!"null"
  | some xs => b!"[" ++ join b!"," (xs.map f) ++ b!"]"

/-- /repo/ddl/dump_cmd.go:949-967: the text of a string in a column of type `ty` -/
def strField (d : Dialect) (o : DumpOpts) (ty s : Str) : Str :=
  if ty ∈ [b!"BINARY", b!"VARBINARY", b!"TINYBLOB", b!"BLOB", b!"MEDIUMBLOB", b!"LONGBLOB"] then
    o.binaryprefix ++ hexEncode s
  else if ty = b!"UUID" ∧ d = .sqlite ∧ s.length = 16 then o.binaryprefix ++ hexEncode s
  else if ty = b!"UUID" ∧ d = .postgres ∧ o.uuidAsBytes = true then
    o.binaryprefix ++ s.filter (· ≠ '-')
  else s

/-- /repo/ddl/dump_cmd.go:920-988: the field of a value; `json.Marshal` of an array of floats is
written with the format of `strconv`. -/
def field {F} (fl : Floats F) (d : Dialect) (o : DumpOpts) (ty : Str) : Scanned F → Str
  | .bytes b => if b = [] then o.nullstring else o.binaryprefix ++ hexEncode b
  | .bool none => o.nullstring
  | .bool (some b) => if b then b!"1" else b!"0"
  | .float none => o.nullstring
  | .float (some x) => fl.fmtF x
  | .int none => o.nullstring
  | .int (some i) => formatInt i
  | .str none => o.nullstring
  | .str (some s) => strField d o ty s
  | .time none => o.nullstring
  | .time (some t) => timeText t
  | .bools xs => jsonArray (fun b => if b then b!"true" else b!"false") xs
  | .ints xs => jsonArray formatInt xs
  | .floats xs => jsonArray fl.fmtF xs
  | .strings xs => jsonArray jsonString xs

/-- /repo/ddl/dump_cmd.go:916-988: the field of what the driver returns; `none` is an error of
`rows.Scan`.  `t` is the type of the column in the catalog. -/
def dumpField {F} (fl : Floats F) (d : Dialect) (o : DumpOpts) (t : Str) (v : Value F) : Option Str :=
  (scan fl (dest d o (columnType d t)) v).map (field fl d o (columnType d t))

/-- /repo/ddl/dump_cmd.go:846-849: the columns that are dumped -/
def dumpedColumns (t : Table) : List Column :=
  t.columns.filter fun c => !(c.generatedExpr ≠ [] || c.isGenerated)

/-- /repo/ddl/dump_cmd.go:842-1001 `dumpCSV`: the text of the file; `rows` are the rows that
`rows.Next` reaches, whether or not the connection broke after them: `rows.Err` is not called. -/
def dumpCSV {F} (fl : Floats F) (space : Str → Bool) (d : Dialect) (o : DumpOpts) (t : Table)
    (rows : List (List (Value F))) : Option Str :=
  (rows.mapM fun r => ((dumpedColumns t).zip r).mapM fun p =>
      dumpField fl d o p.1.columnType p.2).map fun rs =>
    Csv.write space ((dumpedColumns t).map (·.columnName) :: rs)

/-! ## load -/

/-- /repo/ddl/load_cmd.go:31-83: the fields of `LoadCmd` that matter here -/
structure LoadOpts where
  nullstring : Str := []
  binaryprefix : Str := []
  noNullstring : Bool := false
  noBinaryprefix : Bool := false
  timestampAsInteger : Bool := false

/-- /repo/ddl/load_cmd.go:166-171: the defaults -/
def LoadOpts.run (o : LoadOpts) : LoadOpts :=
  { o with
    nullstring := if o.nullstring = [] then b!"\\N" else o.nullstring
    binaryprefix := if o.binaryprefix = [] then b!"0x" else o.binaryprefix }

/-- A parameter of an INSERT: /repo/ddl/load_cmd.go:436-491 `rowvalue[i]`. -/
inductive Param
  | null
  | bytes (b : Str)
  | str (s : Str)
  | int (i : Int)
deriving DecidableEq, Repr

/-- /repo/ddl/load_cmd.go:459-468: the text of a UUID of 16 bytes -/
def uuidText (b : Str) : Str :=
  hexEncode (b.take 4) ++ b!"-" ++ hexEncode ((b.drop 4).take 2) ++ b!"-" ++
  hexEncode ((b.drop 6).take 2) ++ b!"-" ++ hexEncode ((b.drop 8).take 2) ++ b!"-" ++
  hexEncode (b.drop 10)

/-- /repo/ddl/load_cmd.go:441-445 -/
def binaryTypes : List Str :=
  [b!"BYTEA", b!"BINARY", b!"VARBINARY", b!"TINYBLOB", b!"BLOB", b!"MEDIUMBLOB", b!"LONGBLOB",
    b!"VARBIT", b!"UUID"]

/-- /repo/ddl/load_cmd.go:446-473: a binary literal; `none` is an error -/
def loadBinary (d : Dialect) (o : LoadOpts) (ty f : Str) : Option Param :=
  (hexDecode (trimPrefix f o.binaryprefix)).bind fun b =>
    if d = .postgres ∧ ty = b!"UUID" then (if b.length = 16 then some (.str (uuidText b)) else none)
    else some (.bytes b)

/-- /repo/ddl/load_cmd.go:434-492: the parameter for a field in a column of the normalised type `ty`;
`unix` is the number of seconds of a time in one of the formats of lines 329-339. -/
def loadField (d : Dialect) (o : LoadOpts) (unix : Str → Option Int) (ty f : Str) : Option Param :=
  if !o.noNullstring && f = o.nullstring then some .null
  else if binaryTypes.contains ty && !o.noBinaryprefix && o.binaryprefix ≠ [] &&
      hasPrefix f o.binaryprefix then loadBinary d o ty f
  else if d = .postgres ∧ hasSuffix ty b!"[]" = true ∧ f.length > 2 ∧ f.head? = some '[' ∧
      f.getLast? = some ']' then
    some (.str (b!"{" ++ (f.drop 1).dropLast ++ b!"}"))
  else if d = .sqlite ∧ o.timestampAsInteger = true ∧
      ty ∈ [b!"TIMESTAMP", b!"DATETIME", b!"DATE"] ∧ (unix (trimSuffix f b!"Z")).isSome then
    (unix (trimSuffix f b!"Z")).map .int
  else some (.str f)

/-- /repo/ddl/load_cmd.go:997-1084 `getColumnInfo`: the types of the columns of a file; `types` are
the names and types of the columns of the table.  In MySQL and SQL Server the query has no result for
a table without primary key. -/
def columnTypes (d : Dialect) (hasPkey : Bool) (types : List (Str × Str)) (header : List Str) : List Str :=
  let found := if (d = .mysql ∨ d = .sqlserver) ∧ hasPkey = false then [] else types
  header.map fun c => match found.lookup c with
    | some t => (normType d t).1
    | none => []

/-- /repo/ddl/load_cmd.go:423-494: the rows for the batch insert; `none` is an error -/
def loadRows (d : Dialect) (o : LoadOpts) (unix : Str → Option Int) (tys : List Str) :
    List (List Str) → Option (List (List Param))
  | [] => some []
  | r :: rs =>
    if r.length ≠ tys.length then none
    else ((tys.zip r).mapM fun p => loadField d o unix p.1 p.2).bind fun ps =>
      (loadRows d o unix tys rs).map (ps :: ·)

/-- /repo/ddl/load_cmd.go:346-494 `loadCSV`: the columns and the rows of the batch insert; `none` is an
error, in the first line that the file is empty. -/
def loadCSV (d : Dialect) (o : LoadOpts) (unix : Str → Option Int) (hasPkey : Bool)
    (types : List (Str × Str)) (text : Str) : Option (List Str × List (List Param)) :=
  match Csv.read text with
  | [] => none
  | header :: records =>
    (loadRows d o unix (columnTypes d hasPkey types header) records).map fun ps => (header, ps)

/-! ## File names -/

/-- /repo/ddl/dump_cmd.go:377-380, 489-492, 599-602: the name of the file of a table; `cur` is the
current schema.  (In a directory the name is cleaned by `filepath.Join`, which leaves a name without
slashes as it is.) -/
def csvFile (cur schema table : Str) : Str :=
  if schema ≠ [] ∧ schema ≠ cur then schema ++ b!"." ++ (table ++ b!".csv") else table ++ b!".csv"

/-- /repo/ddl/load_cmd.go:358-361: without the digits and the underscore that it begins with
(regular expression `^\d*_`) -/
def trimNumber (s : Str) : Str :=
  match s.dropWhile isDigit with
  | '_' :: r => r
  | _ => s

/-- /repo/ddl/load_cmd.go:355-370: the schema and table that a file is loaded into.  `filepath.Base`
is `baseName` unless the name is empty or ends in a slash (which is not modelled). -/
def tableOf (cur filename : Str) : Str × Str :=
  let f := trimSuffix filename b!".csv"
  let n := trimNumber (if f = [] then b!"." else baseName f)
  let schema := if '.' ∈ n then n.takeWhile (· ≠ '.') else []
  (if schema = [] then cur else schema, if '.' ∈ n then (n.dropWhile (· ≠ '.')).drop 1 else n)

/-! ## A query that breaks off -/

/-- /repo/ddl/dump_cmd.go:842-1001 `dumpCSV` of a table with the rows `all`, when the connection breaks
after `n` of them: `rows.Next` returns false then, and `rows.Err`, which would tell, is not called. -/
def dumpBroken {F} (fl : Floats F) (space : Str → Bool) (d : Dialect) (o : DumpOpts) (t : Table)
    (all : List (List (Value F))) (n : Nat) : Option Str :=
  dumpCSV fl space d o t (all.take n)

end Sqddl.DumpCsv
