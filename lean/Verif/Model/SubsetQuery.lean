import Verif.Model.DumpCsv
import Verif.Model.Quote
import Verif.Model.Sprint

/-!
# The result of a subset query in the query of a dump: /repo/ddl/subsetter.go:143-303, 486-534

The primary keys that a subset query selects are read and written as literals into a common table
expression, to which the tables are joined (`Verif/Model/Subset.lean`).
-/

namespace Sqddl.SubsetQuery
open Go DumpCsv

/-- /repo/ddl/subsetter.go:169-191: where a column of the primary key is scanned to. `UUID` is not
listed there ("UUIDField" is), but the default is the same. -/
def keyDest (d : Dialect) (ty : Str) : Dest := if d = .sqlite then .str else scalarDest ty

/-- What is scanned: /repo/ddl/subsetter.go:170-190.  A time is in UTC. -/
inductive Key (F : Type)
  | null
  | bytes (b : Str)
  | bool (b : Bool)
  | float (x : F)
  | int (i : Int)
  | str (s : Str)
  | time (t : Time)
deriving DecidableEq, Repr

/-- `Timestamp.Scan` of an integer and of a text (see `Sprint.scanTimestamp`), as the clock in UTC
shows it. -/
structure Clock where
  ofInt : Int → Time
  ofText : Str → Option Time

/-- /repo/ddl/subsetter.go:205-209 `rows.Scan`; `none` is an error.  What is not a time is scanned as
in a dump. -/
def scanKey {F} (fl : Floats F) (clock : Clock) (dst : Dest) (v : Value F) : Option (Key F) :=
  match v with
  | .null => some .null
  | v =>
    if dst = .time then
      match v with
      | .time t => some (.time t)
      | .int i => some (.time (clock.ofInt i))
      | .bytes s | .str s => if s = [] then some .null else (clock.ofText s).map .time
      | _ => none
    else (scan fl dst v).bind fun
      | .bytes b => some (.bytes b)
      | .bool (some b) => some (.bool b)
      | .float (some x) => some (.float x)
      | .int (some i) => some (.int i)
      | .str (some s) => some (.str s)
      | _ => none

/-- /repo/ddl/subsetter.go:263-285: the literal of a text in SQLite, by the type of the column -/
def sqliteText {F} (fl : Floats F) (ty s : Str) : Str :=
  if ty ∈ [b!"BINARY", b!"VARBINARY", b!"TINYBLOB", b!"BLOB", b!"MEDIUMBLOB", b!"LONGBLOB"] then
    b!"x'" ++ hexEncode s ++ b!"'"
  else if ty ∈ [b!"BOOLEAN", b!"BIT", b!"NUMERIC", b!"FLOAT", b!"REAL", b!"DOUBLE PRECISION",
      b!"TINYINT", b!"SMALLINT", b!"MEDIUMINT", b!"INT", b!"INTEGER", b!"BIGINT"] then s
  else if ty = b!"UUID" ∧ s.length = 16 then b!"x'" ++ hexEncode s ++ b!"'"
  else if ty ∈ [b!"DATE", b!"TIME", b!"TIMETZ", b!"DATETIME", b!"DATETIME2", b!"SMALLDATETIME",
      b!"DATETIMEOFFSET", b!"TIMESTAMP", b!"TIMESTAMPTZ"] ∧
      ((parseInt64 s).isSome ∨ (fl.parse s).isSome) then s
  else b!"'" ++ escapeQuote '\'' s ++ b!"'"

/-- /repo/ddl/subsetter.go:211-301: the literal of a field -/
def keyText {F} (fl : Floats F) (d : Dialect) (ty : Str) : Key F → Str
  | .null => b!"NULL"
  | .bytes b => Sprint.bytesText d b
  | .bool b => Sprint.boolText d b
  | .float x => fl.fmtF x
  | .int i => formatInt i
  | .str s => if d = .sqlite then sqliteText fl ty s else b!"'" ++ escapeQuote '\'' s ++ b!"'"
  | .time t =>
    if t.nano % 10 ^ 6 ≠ 0 then b!"'" ++ timeText t ++ b!"." ++ pad 3 (t.nano / 10 ^ 6) ++ b!"'"
    else b!"'" ++ timeText t ++ b!"'"

/-- /repo/ddl/subsetter.go:205-301: the literals of a row; `none` is an error. -/
def record {F} (fl : Floats F) (clock : Clock) (d : Dialect) : List Str → List (Value F) → Option (List Str)
  | [], [] => some []
  | ty :: tys, v :: vs => (scanKey fl clock (keyDest d ty) v).bind fun k =>
    (record fl clock d tys vs).map (keyText fl d ty k :: ·)
  | _, _ => none

/-- /repo/ddl/subsetter.go:203-303: the literals of the rows that `rows.Next` reaches, whether or not the
connection broke after them: `rows.Err` is not called. -/
def records {F} (fl : Floats F) (clock : Clock) (d : Dialect) (types : List Str) (rows : List (List (Value F))) :
    Option (List (List Str)) := rows.mapM (record fl clock d types)

/-- /repo/ddl/subsetter.go:513-523: one row -/
def rowText (d : Dialect) (r : List Str) : Str :=
  (if d = .mysql then b!"ROW" else []) ++ b!"(" ++ join b!", " r ++ b!")"

/-- /repo/ddl/subsetter.go:503-524: the rows; `since` is `buf.Len() - n`. -/
def rowsText (d : Dialect) : Bool → Nat → List (List Str) → Str
  | _, _, [] => []
  | first, since, r :: rs =>
    (if since > 80 then b!"\n       " else []) ++ (if first then [] else b!",") ++ rowText d r ++
      rowsText d false ((if since > 80 then 8 else since) + (if first then 0 else 1) + (rowText d r).length) rs

/-- /repo/ddl/subsetter.go:485-529: the common table expression of a result; `cols` are the quoted
names of the columns of the primary key. -/
def resultText (d : Dialect) (num : Nat) (cols : Str) (records : List (List Str)) : Str :=
  b!"query" ++ itoa (num + 1) ++ b!"_ " ++
  (if d = .sqlserver then b!" AS (\n    SELECT * FROM (VALUES " else b!"(" ++ cols ++ b!") AS (\n    VALUES ") ++
  rowsText d true 0 records ++
  (if d = .sqlserver then b!") AS tmp (" ++ cols ++ b!")" else []) ++ b!"\n)\n"

end Sqddl.SubsetQuery
