import Verif.Model.Quote

/-!
# Model of batch inserts (/repo/ddl/batch_insert.go)

Values are of an arbitrary type `α`.  The database is an oracle that says for each call whether it
succeeds; the calls made are the observable.
-/

namespace Sqddl

/-- `strconv.Itoa` of a natural number. -/
def itoa (n : Nat) : Str := Nat.toDigits 10 n

/-- /repo/ddl/batch_insert.go:15-54 `BatchInsert`. -/
structure BatchInsert where
  batchsize : Int
  dialect : Dialect
  schema : Str
  table : Str
  columns : List Str
  keyColumns : List Str
  identityColumns : List Str
deriving DecidableEq, Repr

namespace BatchInsert

/-- /repo/ddl/batch_insert.go:96-110: the key columns, dropped altogether if one of them is not
among the columns. -/
def keys (bi : BatchInsert) : List Str :=
  if bi.keyColumns.all (bi.columns.contains ·) then bi.keyColumns else []

/-- /repo/ddl/batch_insert.go:111-117. -/
def nonKeys (bi : BatchInsert) : List Str := bi.columns.filter (!bi.keys.contains ·)

/-- /repo/ddl/batch_insert.go:118-128. -/
def identities (bi : BatchInsert) : List Str := bi.identityColumns.filter (bi.columns.contains ·)

/-- /repo/ddl/batch_insert.go:143-153: the number of parameters a statement may have, 0 for no
limit. -/
def paramLimit : Dialect → Nat
  | .sqlite => 32766
  | .postgres => 65535
  | .mysql => 65535
  | .sqlserver => 2100
  | _ => 0

/-- /repo/ddl/batch_insert.go:130-159: the number of rows of a full batch.  It is not positive if
there are more columns than half the parameter limit.  For no columns at all the value does not
matter (error in line 173). -/
def size (bi : BatchInsert) : Int :=
  let b := if bi.batchsize ≤ 0 then 500 else bi.batchsize
  let b := if bi.dialect = .sqlserver ∧ b > 25 then 25 else b
  let limit := paramLimit bi.dialect
  if limit > 0 then
    let m : Int := (limit / bi.columns.length : Nat) - 1
    if b > m then m else b
  else b

/-- /repo/ddl/batch_insert.go:440-446: a placeholder. -/
def placeholder (d : Dialect) (n : Nat) : Str :=
  match d with
  | .postgres => '$' :: itoa n
  | .sqlserver => '@' :: 'p' :: itoa n
  | _ => b!"?"

/-- /repo/ddl/batch_insert.go:435-447: the placeholders `j, ..., numFields - 1` of one row; `n` is the
counter. Result: text and counter. -/
def writeFields (d : Dialect) (first : Bool) : (left n : Nat) → Str × Nat
  | 0, n => ([], n)
  | left + 1, n =>
    let r := writeFields d false left (n + 1)
    ((if first then [] else b!", ") ++ placeholder d (n + 1) ++ r.1, r.2)

/-- /repo/ddl/batch_insert.go:427-450 `writeRowValues`; `left` rows are still to be written. -/
def writeRows (d : Dialect) (numFields : Nat) (first : Bool) : (left n : Nat) → Str
  | 0, _ => []
  | left + 1, n =>
    let r := writeFields d true numFields n
    (if first then [] else b!", ") ++ b!"(" ++ r.1 ++ b!")" ++ writeRows d numFields false left r.2

/-- /repo/ddl/batch_insert.go:427-450 `writeRowValues`. -/
def rowValues (bi : BatchInsert) (rows : Nat) : Str :=
  writeRows bi.dialect bi.columns.length true rows 0

/-- /repo/ddl/batch_insert.go:166-169. -/
def tableName (bi : BatchInsert) : Str :=
  if bi.schema ≠ [] then quoteIdentifier bi.dialect bi.schema ++ b!"." ++ quoteIdentifier bi.dialect bi.table
  else quoteIdentifier bi.dialect bi.table

/-- /repo/ddl/batch_insert.go:175-182. -/
def columnNames (bi : BatchInsert) : Str :=
  Go.join b!", " (bi.columns.map (quoteIdentifier bi.dialect))

/-- /repo/ddl/batch_insert.go:195-205 `insertStart`. -/
def insertStart (bi : BatchInsert) : Str :=
  b!"INSERT INTO " ++ bi.tableName ++ b!" (" ++ bi.columnNames ++ b!")" ++
  (if bi.identities ≠ [] ∧ bi.dialect = .postgres then b!" OVERRIDING SYSTEM VALUE VALUES "
   else if bi.keys ≠ [] ∧ bi.dialect = .sqlserver then b!" SELECT " ++ bi.columnNames ++ b!" FROM (VALUES "
   else b!" VALUES ")

/-- /repo/ddl/batch_insert.go:254-260, 305-311: the comparison of the key columns (SQL Server). -/
def keysMatch (bi : BatchInsert) : Str :=
  Go.join b!" AND " (bi.keys.map fun c =>
    bi.tableName ++ b!"." ++ quoteIdentifier bi.dialect c ++ b!" = tmp_." ++ quoteIdentifier bi.dialect c)

/-- /repo/ddl/batch_insert.go:212-265 `insertEnd`. -/
def insertEnd (bi : BatchInsert) : Str :=
  match bi.keys with
  | [] => []
  | k :: ks =>
    match bi.dialect with
    | .sqlite | .postgres =>
      b!" ON CONFLICT (" ++ Go.join b!", " ((k :: ks).map (quoteIdentifier bi.dialect)) ++ b!") " ++
      (if bi.nonKeys ≠ [] then b!"DO UPDATE SET " ++ Go.join b!", " (bi.nonKeys.map fun c =>
          quoteIdentifier bi.dialect c ++ b!" = EXCLUDED." ++ quoteIdentifier bi.dialect c)
       else b!"DO NOTHING")
    | .mysql =>
      b!" ON DUPLICATE KEY UPDATE " ++
      (if bi.nonKeys ≠ [] then Go.join b!", " (bi.nonKeys.map fun c =>
          quoteIdentifier bi.dialect c ++ b!" = VALUES(" ++ quoteIdentifier bi.dialect c ++ b!")")
       else quoteIdentifier bi.dialect k ++ b!" = " ++ quoteIdentifier bi.dialect k)
    | .sqlserver =>
      b!") AS tmp_ (" ++ bi.columnNames ++ b!") WHERE NOT EXISTS (SELECT 1 FROM " ++ bi.tableName ++
      b!" WHERE " ++ bi.keysMatch ++ b!")"
    | _ => []

/-- /repo/ddl/batch_insert.go:277: whether an UPDATE goes before each INSERT. -/
def updates (bi : BatchInsert) : Bool :=
  decide (bi.keys ≠ []) && decide (bi.nonKeys ≠ []) && decide (bi.dialect = .sqlserver)

/-- /repo/ddl/batch_insert.go:281-288: the columns set by the UPDATE. -/
def updateColumns (bi : BatchInsert) : List Str :=
  bi.columns.filter fun c => !bi.keys.contains c && !bi.identities.contains c

/-- /repo/ddl/batch_insert.go:278-298 `updateStart`. -/
def updateStart (bi : BatchInsert) : Str :=
  b!"UPDATE " ++ bi.tableName ++ b!" WITH (UPDLOCK, SERIALIZABLE) SET " ++
  Go.join b!", " (bi.updateColumns.map fun c =>
    quoteIdentifier bi.dialect c ++ b!" = tmp_." ++ quoteIdentifier bi.dialect c) ++
  b!" FROM " ++ bi.tableName ++ b!" JOIN (VALUES "

/-- /repo/ddl/batch_insert.go:300-309 `updateEnd`. -/
def updateEnd (bi : BatchInsert) : Str :=
  b!") AS tmp_ (" ++ bi.columnNames ++ b!") ON " ++ bi.keysMatch

/-- The calls made to the database.  `update`/`insert` carry the number of rows of placeholders in
the statement text and the arguments. -/
inductive Call (α : Type)
  | identityOn
  | prepareInsert
  | prepareUpdate
  | update (rows : Nat) (args : List α)
  | insert (rows : Nat) (args : List α)
  | identityOff
  | setval (column : Str)
deriving DecidableEq, Repr

/-- The SQL text of a call: /repo/ddl/batch_insert.go:186, 268, 314, 333, 351, 379, 390, 406, 415. -/
def Call.text {α} (bi : BatchInsert) : Call α → Str
  | .identityOn => b!"SET IDENTITY_INSERT " ++ bi.tableName ++ b!" ON"
  | .prepareInsert => bi.insertStart ++ bi.rowValues bi.size.toNat ++ bi.insertEnd
  | .prepareUpdate => bi.updateStart ++ bi.rowValues bi.size.toNat ++ bi.updateEnd
  | .update rows _ => bi.updateStart ++ bi.rowValues rows ++ bi.updateEnd
  | .insert rows _ => bi.insertStart ++ bi.rowValues rows ++ bi.insertEnd
  | .identityOff => b!"SET IDENTITY_INSERT " ++ bi.tableName ++ b!" OFF"
  | .setval c => b!"SELECT setval(pg_get_serial_sequence($1, $2), MAX(" ++ quoteIdentifier bi.dialect c ++
      b!")) FROM " ++ bi.tableName

/-- /repo/ddl/batch_insert.go:331-364, 375-401: the calls for one batch. -/
def batchCalls {α} (bi : BatchInsert) (rows : Nat) (args : List α) : List (Call α) :=
  (if bi.updates then [.update rows args] else []) ++ [.insert rows args]

/-- /repo/ddl/batch_insert.go:317-401: the loop over the rows; `cnt` is `batchcounter`.  The rows are
those the callback produces before it returns `io.EOF` or, if `eof` is false, another error.  A full
batch goes to the prepared statement, which has placeholders for `size` rows. -/
def loop {α} (bi : BatchInsert) (eof : Bool) : (cnt : Nat) → (args : List α) → List (List α) → List (Call α)
  | cnt, args, [] => if eof && decide (cnt > 0) then bi.batchCalls cnt args else []
  | cnt, args, r :: rs =>
    if ((cnt + 1 : Nat) : Int) ≥ bi.size then
      bi.batchCalls bi.size.toNat (args ++ r) ++ loop bi eof 0 [] rs
    else loop bi eof (cnt + 1) (args ++ r) rs

/-- All calls of `ExecContext` if none of them fails (/repo/ddl/batch_insert.go:184-424). -/
def calls {α} (bi : BatchInsert) (eof : Bool) (rows : List (List α)) : List (Call α) :=
  (if bi.identities ≠ [] ∧ bi.dialect = .sqlserver then [.identityOn] else []) ++ [.prepareInsert] ++
  (if bi.updates then [.prepareUpdate] else []) ++ bi.loop eof 0 [] rows ++
  (if eof then
    (if bi.identities ≠ [] ∧ bi.dialect = .sqlserver then [.identityOff] else []) ++
    (if bi.dialect = .postgres then bi.identities.map .setval else [])
   else [])

/-- Result of a batch insert. -/
inductive Result
  | ok | error | panic
deriving DecidableEq, Repr

/-- Calls are made one after the other until one fails; `ok n` is the outcome of the n-th call. -/
def execute {α} (ok : Nat → Bool) : Nat → List (Call α) → List (Call α) × Bool
  | _, [] => ([], true)
  | n, c :: cs =>
    if ok n then let r := execute ok (n + 1) cs; (c :: r.1, r.2) else ([c], false)

/-- /repo/ddl/batch_insert.go:89-425 `ExecContext`.  The two `make` calls with a negative size
(lines 111 and 319) panic, the second after the statements have been prepared; its capacity is
computed from the `Batchsize` field, not from the corrected batch size. -/
def exec {α} (bi : BatchInsert) (ok : Nat → Bool) (eof : Bool) (rows : List (List α)) :
    List (Call α) × Result :=
  if bi.columns.length < bi.keys.length then ([], .panic)
  else if bi.columns = [] then ([], .error)
  else if bi.batchsize < 0 then
    let r := execute ok 0
      ((if bi.identities ≠ [] ∧ bi.dialect = .sqlserver then [.identityOn] else []) ++ [.prepareInsert] ++
       (if bi.updates then [.prepareUpdate] else []))
    (r.1, if r.2 then .panic else .error)
  else
    let r := execute ok 0 (bi.calls eof rows)
    (r.1, if r.2 && eof then .ok else .error)

end BatchInsert
end Sqddl
