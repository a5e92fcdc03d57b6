import Verif.Model.Quote
import Verif.Model.BatchInsert

/-!
# Session settings

/repo/ddl/load_cmd.go:1086-1118 `setSessionValue` and the ways in which it is used.
-/

namespace Sqddl.Session
open Go

/-- How a connection treats one session setting (an input of the model). -/
structure Engine (V : Type) where
  /-- the text that the query for the setting returns; `none`: no row -/
  shown : V → Option Str
  /-- what a statement makes of the setting; `none`: the statement is rejected -/
  assign : Str → Option V
  /-- rolling back undoes the statement -/
  transactional : Bool
  /-- after an error in a transaction every further statement of it is rejected -/
  aborts : Bool

/-- A connection: the setting, the state of the transaction and all statements received. -/
structure Conn (V : Type) where
  value : V
  /-- the value when the open transaction began -/
  saved : Option V := none
  aborted : Bool := false
  calls : List Str := []
deriving DecidableEq, Repr

section
variable {V : Type} (eng : Engine V) (fails : Nat → Bool)

/-- A statement is recorded; it fails if the connection fails (`fails`, by position) or the
transaction is aborted. -/
def Conn.refused (c : Conn V) : Bool := fails c.calls.length || c.aborted

/-- After an error. -/
def Conn.error (c : Conn V) (s : Str) : Conn V :=
  { c with calls := c.calls ++ [s], aborted := c.aborted || (c.saved.isSome && eng.aborts) }

/-- `db.QueryContext(ctx, getter)` and reading its first row into a string, which stays empty
without a row (/repo/ddl/load_cmd.go:1087-1102). -/
def Conn.query (c : Conn V) (s : Str) : Option Str × Conn V :=
  if c.refused fails then (none, c.error eng s)
  else (some ((eng.shown c.value).getD []), { c with calls := c.calls ++ [s] })

/-- `db.ExecContext(ctx, s)` for a statement that changes the setting; `false` is an error. -/
def Conn.exec (c : Conn V) (s : Str) : Bool × Conn V :=
  if c.refused fails then (false, c.error eng s)
  else match eng.assign s with
    | some v => (true, { c with value := v, calls := c.calls ++ [s] })
    | none => (false, c.error eng s)

/-- The texts of a setting: the query, and the statement around the value
(`strings.ReplaceAll(setter, "%s", value)`; every setter of the code has one `%s`). -/
structure Texts where
  getter : Str
  before : Str
  after : Str := []
deriving DecidableEq, Repr

/-- /repo/ddl/load_cmd.go:1106, 1115 -/
def Texts.setter (x : Texts) (v : Str) : Str := x.before ++ escapeQuote '\'' v ++ x.after

/-- /repo/ddl/load_cmd.go:1086-1118.  The result is the function that restores the value: `some
none` is a function that does nothing, `some (some old)` one that sets `old` when it is called the
first time and nothing from then on; `none` is an error. -/
def setSessionValue (x : Texts) (value : Str) (c : Conn V) : Option (Option Str) × Conn V :=
  match c.query eng fails x.getter with
  | (none, c) => (none, c)
  | (some old, c) =>
    if old = value then (some none, c)
    else match c.exec eng fails (x.setter value) with
      | (false, c) => (none, c)
      | (true, c) => (some (some old), c)

/-- Calling the restoring function (/repo/ddl/load_cmd.go:1111-1117): the error, what the function
does when it is called again, and the connection. -/
def restore (x : Texts) (r : Option Str) (c : Conn V) : Bool × Option Str × Conn V :=
  match r with
  | none => (true, none, c)
  | some old =>
    match c.exec eng fails (x.setter old) with
    | (ok, c) => (ok, none, c)

/-- The use outside of transactions: /repo/ddl/load_cmd.go:193-200 and 265, 293-300 and 331,
/repo/ddl/migrate_cmd.go:260-278 and 331: set, work, restore; a deferred second call restores if the
work failed.  Result: no error, and the connection. -/
def during (x : Texts) (value : Str) (body : Conn V → Bool × Conn V) (c : Conn V) :
    Bool × Conn V :=
  match setSessionValue eng fails x value c with
  | (none, c) => (false, c)
  | (some r, c) =>
    match body c with
    | (false, c) => (false, (restore eng fails x r c).2.2)
    | (true, c) =>
      match restore eng fails x r c with
      | (ok, r', c) => (ok, (restore eng fails x r' c).2.2)

/-- `tx.Commit()`: without an error the setting stays. -/
def Conn.commit (c : Conn V) : Bool × Conn V :=
  if c.refused fails then (false, { c with calls := c.calls ++ [b!"COMMIT"] })
  else (true, { c with saved := none, calls := c.calls ++ [b!"COMMIT"] })

/-- `tx.Rollback()`; nothing if the transaction has ended. -/
def Conn.rollback (c : Conn V) : Conn V :=
  match c.saved with
  | none => c
  | some v =>
    { c with value := if eng.transactional then v else c.value, saved := none, aborted := false,
             calls := c.calls ++ [b!"ROLLBACK"] }

/-- The use in a transaction, /repo/ddl/load_cmd.go:347, 392-414 and 533-541 (`loadCSV`): set,
work, restore, commit; deferred: restore, then roll back. -/
def duringTx (x : Texts) (value : Str) (body : Conn V → Bool × Conn V) (c : Conn V) :
    Bool × Conn V :=
  let c := { c with saved := some c.value }
  match setSessionValue eng fails x value c with
  | (none, c) => (false, c.rollback eng)
  | (some r, c) =>
    match body c with
    | (false, c) => (false, (restore eng fails x r c).2.2.rollback eng)
    | (true, c) =>
      match restore eng fails x r c with
      | (false, r', c) => (false, (restore eng fails x r' c).2.2.rollback eng)
      | (true, r', c) =>
        match c.commit fails with
        | (ok, c) => (ok, (restore eng fails x r' c).2.2.rollback eng)

end

/-! ## The settings of the code -/

/-- /repo/ddl/load_cmd.go:195 -/
def sqliteForeignKeys : Texts := { getter := b!"PRAGMA foreign_keys", before := b!"PRAGMA foreign_keys = " }
/-- /repo/ddl/load_cmd.go:295 and 406 -/
def mysqlForeignKeyChecks : Texts :=
  { getter := b!"SELECT @@foreign_key_checks", before := b!"SET foreign_key_checks = " }
/-- /repo/ddl/load_cmd.go:402 -/
def pgTimezone : Texts := { getter := b!"SHOW timezone", before := b!"SET timezone = '", after := b!"'" }
/-- /repo/ddl/migrate_cmd.go:267 -/
def pgLockTimeout : Texts := { getter := b!"SHOW lock_timeout", before := b!"SET lock_timeout = " }
/-- /repo/ddl/migrate_cmd.go:269 -/
def mysqlLockWaitTimeout : Texts :=
  { getter := b!"SELECT @@lock_wait_timeout", before := b!"SET lock_wait_timeout = " }
/-- /repo/ddl/migrate_cmd.go:271 -/
def mssqlLockTimeout : Texts := { getter := b!"SELECT @@LOCK_TIMEOUT", before := b!"SET LOCK_TIMEOUT " }

end Sqddl.Session
