import Verif.Model.Files
import Verif.Model.Quote
import Verif.Spec.Sql

/-!
# Model of `sqddl migrate` (/repo/ddl/migrate_cmd.go)

The database is a log of committed effects plus the history table.  Every call to the database
takes its outcome from an oracle; the outcomes include dying before and after the call took
effect.  A call outside a transaction changes the committed state directly, a call inside one
changes the transaction's private state, which replaces the committed state on commit.
-/

namespace Sqddl.Migrate

/-- One row of the history table (/repo/ddl/touch_cmd.go:266-274), without `time_taken_ns`.
The table has `filename` as primary key. -/
structure Row where
  checksum : Str
  startedAt : Option Nat
  success : Bool
deriving DecidableEq, Repr

/-- The history table: at most one row per filename. -/
abbrev History := Str → Option Row

/-- Insert or update one row (the upsert of /repo/ddl/migrate_cmd.go:535-556). -/
def History.upsert (h : History) (f : Str) (r : Row) : History :=
  fun g => if g = f then some r else h g

/-- Effects on the user's data: a script that ran completely, one that failed half-way outside a
transaction, and an undo script. -/
inductive Eff
  | script (f : Str)
  | part (f : Str)
  | undo (f : Str)
deriving DecidableEq, Repr

/-- State of the database. -/
structure DB where
  eff : List Eff
  hist : History

/-- What `migrate` asked the database to do, in order: run a migration script, run an undo script;
`batch` marks the start of the processing of a queue. -/
inductive Ev
  | batch (fs : List Str)
  | exec (f : Str)
  | undo (f : Str)
deriving DecidableEq, Repr

/-- Outcome of one call to the database. `lock`: an error for which the driver's `IsLockTimeout`
is true; `crash`: the process dies before the call takes effect; `crashAfter`: after. -/
inductive Res
  | ok | fail | lock | crash | crashAfter
deriving DecidableEq, Repr

/-- Everything outside the program. -/
structure Env where
  /-- outcome of the n-th database call -/
  res : Nat → Res
  /-- contents of the files of the migration directory, `none` if a file cannot be opened -/
  files : Str → Option Str
  /-- hex encoded SHA-256 -/
  sha : Str → Str
  /-- the clock -/
  now : Nat → Nat
  /-- how many of the rows of a failed multi-row upsert were written -/
  cut : Nat → Nat
  /-- random draws of `rng.Intn` -/
  rand : Nat → Nat

/-- State of a run. -/
structure St where
  /-- number of database calls made -/
  t : Nat
  db : DB
  /-- private state of the open transaction -/
  tx : Option DB
  log : List Ev

/-- The fields of `MigrateCmd` that matter, after the defaults of
/repo/ddl/migrate_cmd.go:171-182 have been filled in. -/
structure Cfg where
  dialect : Dialect
  skipHistory : Bool
  maxAttempts : Int
  baseDelay : Int
  maxDelay : Int
deriving DecidableEq, Repr

/-- /repo/ddl/migrate_cmd.go:331-338 `migration`. -/
structure Mig where
  valid : Bool
  filename : Str
  checksum : Str
  startedAt : Option Nat
  success : Bool
deriving DecidableEq, Repr

/-- The two kinds of errors. -/
inductive Err
  | fail | lock
deriving DecidableEq, Repr

/-- One database call: its outcome, and the state with the counter advanced. -/
def St.tick (st : St) : St := { st with t := st.t + 1 }

/-- Appends an event to the log. -/
def St.logEv (st : St) (e : Ev) : St := { st with log := st.log ++ [e] }

/-- Applies a change inside the open transaction, or directly if there is none. -/
def St.apply (st : St) (f : DB → DB) : St :=
  match st.tx with
  | some d => { st with tx := some (f d) }
  | none => { st with db := f st.db }

/-- `tx.Rollback()`, also what happens to an open transaction when the process dies. -/
def St.rollback (st : St) : St := { st with tx := none }

/-- `tx.Commit()` taking effect. -/
def St.commit (st : St) : St :=
  match st.tx with
  | some d => { st with db := d, tx := none }
  | none => st

def DB.addEff (e : Eff) (d : DB) : DB := { d with eff := d.eff ++ [e] }

def DB.upsert (f : Str) (r : Row) (d : DB) : DB := { d with hist := d.hist.upsert f r }

/-- Result of one attempt: completed, with the updated migrations; stopped with an error at the last of the migrations `ms`
(`queue[0..stoppedAt]`, with the fields that were updated); `BEGIN` failed (stoppedAt = -1); the
process died. -/
inductive RunRes
  | done (ms : List Mig)
  | stopped (ms : List Mig) (e : Err)
  | beginFailed (e : Err)
  | crashed
deriving DecidableEq, Repr

/-- /repo/ddl/migrate_cmd.go:365,451: whether a batch runs in a transaction. -/
def isTx (d : Dialect) (q : List Mig) : Bool :=
  decide (q.length > 1) ||
  (match q with
   | [] => false
   | m :: _ => (!isTxoffFile m.filename && decide (d ≠ .mysql)) || isTxFile m.filename)

/-- /repo/ddl/migrate_cmd.go:481-561: the loop of `run` over the migrations of a batch; `acc` are
the migrations already done.  A failed script outside a transaction may leave part of its effects
behind. -/
def runLoop (cfg : Cfg) (env : Env) (acc : List Mig) : List Mig → St → RunRes × St
  | [], st => (.done acc, st)
  | m :: ms, st =>
    match env.files m.filename with
    | none => (.stopped (acc ++ [m]) .fail, st.rollback)
    | some _ =>
      let st := st.logEv (.exec m.filename)
      let m := { m with startedAt := some (env.now st.t) }
      let r := env.res st.t
      let st := st.tick
      match r with
      | .fail => (.stopped (acc ++ [m]) .fail, (st.apply (·.addEff (.part m.filename))).rollback)
      | .lock => (.stopped (acc ++ [m]) .lock, (st.apply (·.addEff (.part m.filename))).rollback)
      | .crash => (.crashed, (st.apply (·.addEff (.part m.filename))).rollback)
      | .crashAfter => (.crashed, (st.apply (·.addEff (.script m.filename))).rollback)
      | .ok =>
        let m := { m with success := true }
        let st := st.apply (·.addEff (.script m.filename))
        if cfg.skipHistory then runLoop cfg env (acc ++ [m]) ms st
        else
          let r := env.res st.t
          let row : Row := ⟨m.checksum, m.startedAt, true⟩
          let st := st.tick
          match r with
          | .fail => (.stopped (acc ++ [m]) .fail, st.rollback)
          | .lock => (.stopped (acc ++ [m]) .lock, st.rollback)
          | .crash => (.crashed, st.rollback)
          | .crashAfter => (.crashed, (st.apply (·.upsert m.filename row)).rollback)
          | .ok => runLoop cfg env (acc ++ [m]) ms (st.apply (·.upsert m.filename row))

/-- /repo/ddl/migrate_cmd.go:449-574 `run`.  A failed `COMMIT` is taken to roll back. -/
def run (cfg : Cfg) (env : Env) (q : List Mig) (st : St) : RunRes × St :=
  if isTx cfg.dialect q then
    let r := env.res st.t
    let st := st.tick
    match r with
    | .fail => (.beginFailed .fail, st)
    | .lock => (.beginFailed .lock, st)
    | .crash | .crashAfter => (.crashed, st)
    | .ok =>
      match runLoop cfg env [] q { st with tx := some st.db } with
      | (.done ms, st) =>
        let r := env.res st.t
        let st := st.tick
        match r with
        | .ok => (.done ms, st.commit)
        | .fail => (.stopped ms .fail, st.rollback)
        | .lock => (.stopped ms .lock, st.rollback)
        | .crash => (.crashed, st.rollback)
        | .crashAfter => (.crashed, st.commit)
      | x => x
  else runLoop cfg env [] q st

/-- Result of a whole command: success; an error, with the file it is reported for, its kind, and
whether an undo script failed as well; death of the process by the environment; a Go panic. -/
inductive Outcome
  | ok
  | error (file : Option Str) (e : Err) (undoFailed : Bool)
  | crashed
  | panic
deriving DecidableEq, Repr

/-- Two's complement wrap-around of 64-bit integers. -/
def wrap64 (x : Int) : Int := (x + 2 ^ 63) % 2 ^ 64 - 2 ^ 63

/-- One second as a `time.Duration`. -/
def second : Int := 1000000000

/-- /repo/ddl/migrate_cmd.go:396-402: the delay before the next attempt, `none` when `rng.Intn`
panics because its argument is not positive.  `int(math.Exp2(float64(attempts)))` is `2^attempts`
below 63 and the smallest 64-bit integer from 63 on (amd64).  `r` is the random draw, reduced to
the range of `Intn`. -/
def retryDelay (base max : Int) (attempts : Nat) (r : Nat) : Option Int :=
  let multiplier : Int := if attempts < 63 then 2 ^ attempts else - 2 ^ 63
  let n := Int.tdiv (wrap64 (base * multiplier)) second
  if n ≤ 0 then none
  else
    let delay := (r % n) * second
    if delay < base then some base else if delay > max then some max else some delay

/-- /repo/ddl/migrate_cmd.go:576-605 `undo`.  Any error when opening the undo file is taken as
"does not exist".  Result: whether the undo script failed. -/
def undo (env : Env) (m : Mig) (st : St) : Option Bool × St :=
  match env.files (undoFile m.filename) with
  | none => (some false, st)
  | some _ =>
    let st := st.logEv (.undo m.filename)
    let r := env.res st.t
    let st := st.tick
    match r with
    | .ok => (some false, st.apply (·.addEff (.undo m.filename)))
    | .fail | .lock => (some true, st)
    | .crash => (none, st)
    | .crashAfter => (none, st.apply (·.addEff (.undo m.filename)))

/-- /repo/ddl/migrate_cmd.go:417-439: upsert of `queue[0..stoppedAt]` with success = false. -/
def upsertFailed (ms : List Mig) (d : DB) : DB :=
  ms.foldl (fun d m => d.upsert m.filename ⟨m.checksum, m.startedAt, false⟩) d

/-- /repo/ddl/migrate_cmd.go:411-443: after a failed attempt (and the undo script, which failed iff
`uf`), record the failure.  `e` is the error, `ms` is `queue[0..stoppedAt]`, or `none` if
`stoppedAt < 0`.  A failed multi-row upsert may have written the first rows. -/
def recordFailed (cfg : Cfg) (env : Env) (ms : Option (List Mig)) (e : Err) (uf : Bool) (st : St) :
    Outcome × St :=
  match ms with
  | none => (.error none e uf, st)
  | some ms =>
    let f := ms.getLast?.map (·.filename)
    if cfg.skipHistory then (.error f e uf, st)
    else
      let r := env.res st.t
      let st := st.tick
      match r with
      | .ok => (.error f e uf, st.apply (upsertFailed ms))
      | .fail | .lock => (.error f e uf, st.apply (upsertFailed (ms.take (env.cut st.t))))
      | .crash => (.crashed, st.apply (upsertFailed (ms.take (env.cut st.t))))
      | .crashAfter => (.crashed, st.apply (upsertFailed ms))

/-- /repo/ddl/migrate_cmd.go:407-443: what happens after an attempt failed for good. -/
def giveUp (cfg : Cfg) (env : Env) (retryable : Bool) (q : List Mig) (ms : Option (List Mig)) (e : Err)
    (st : St) : Outcome × St :=
  if retryable then recordFailed cfg env ms e false st
  else
    match q with
    | [] => recordFailed cfg env ms e false st
    | m :: _ =>
      match undo env m st with
      | (none, st) => (.crashed, st)
      | (some uf, st) => recordFailed cfg env ms e uf st

/-- /repo/ddl/migrate_cmd.go:366-384: whether the batch is a single statement. -/
def isStmt (cfg : Cfg) (env : Env) (q : List Mig) : Bool :=
  match isTx cfg.dialect q, q with
  | false, [m] => match env.files m.filename with
    | some c => isSingleStmt c
    | none => false
  | _, _ => false

/-- /repo/ddl/migrate_cmd.go:387-446: the retry loop; `left` is how many more attempts may follow
this one (MaxAttempts - attempts), `attempts` the number of this attempt. -/
def retryLoop (cfg : Cfg) (env : Env) (q : List Mig) : (left attempts : Nat) → St → Outcome × St
  | left, attempts, st =>
    match run cfg env q st with
    | (.done _, st) => (.ok, st)
    | (.crashed, st) => (.crashed, st)
    | (.beginFailed e, st) =>
      if e = .lock then (.panic, st) -- queue[-1] in lines 393-394 and 403; a transaction is retryable
      else giveUp cfg env (isTx cfg.dialect q || isStmt cfg env q) q none e st
    | (.stopped ms e, st) =>
      if e = .lock ∧ (isTx cfg.dialect q || isStmt cfg env q) = true then
        match left with
        | 0 => (.error (ms.getLast?.map (·.filename)) .lock false, st)
        | left + 1 =>
          match retryDelay cfg.baseDelay cfg.maxDelay attempts (env.rand st.t) with
          | none => (.panic, st)
          | some _ => retryLoop cfg env q left (attempts + 1) st
      else giveUp cfg env (isTx cfg.dialect q || isStmt cfg env q) q (some ms) e st

/-- /repo/ddl/migrate_cmd.go:364-447 `runWithRetry`.  If the file of a non-transactional batch
cannot be opened the error of line 370 is returned at once. -/
def runWithRetry (cfg : Cfg) (env : Env) (q : List Mig) (st : St) : Outcome × St :=
  let st := st.logEv (.batch (q.map (·.filename)))
  if isTx cfg.dialect q = false ∧ (q.any fun m => (env.files m.filename).isNone) then
    (.error none .fail false, st)
  else retryLoop cfg env q (cfg.maxAttempts - 1).toNat 1 st

/-- Decision about one migration. -/
inductive Decision
  | skip
  | openError
  | queue (m : Mig)
deriving DecidableEq, Repr

/-- /repo/ddl/migrate_cmd.go:280-302: whether a migration is skipped or queued. -/
def decision (env : Env) (m : Mig) : Decision :=
  if !isRepeatable m.filename && m.valid && m.success then .skip
  else if isRepeatable m.filename then
    match env.files m.filename with
    | none => .openError
    | some c =>
      let checksum := env.sha (crlfToLf c)
      if checksum == m.checksum && m.valid && m.success then .skip
      else .queue { m with checksum := checksum }
  else .queue m

/-- /repo/ddl/migrate_cmd.go:307-311: whether the queue is flushed before `m` is added. -/
def flushBefore (d : Dialect) (q : List Mig) (m : Mig) : Bool :=
  match q with
  | [] => false
  | m0 :: _ => d == .mysql || isTxFile m0.filename || isTxoffFile m0.filename ||
      isTxFile m.filename || isTxoffFile m.filename

/-- /repo/ddl/migrate_cmd.go:278-326: the main loop over the migrations with its queue. -/
def mainLoop (cfg : Cfg) (env : Env) : List Mig → List Mig → St → Outcome × St
  | [], q, st => if q = [] then (.ok, st) else runWithRetry cfg env q st
  | m :: ms, q, st =>
    match decision env m with
    | .skip => mainLoop cfg env ms q st
    | .openError => (.error none .fail false, st)
    | .queue m =>
      if flushBefore cfg.dialect q m then
        match runWithRetry cfg env q st with
        | (.ok, st) => mainLoop cfg env ms [m] st
        | x => x
      else mainLoop cfg env ms (q ++ [m]) st

/-- /repo/ddl/migrate_cmd.go:222-230: the row of `f` is selected if one of the literals in the
`IN (...)` list denotes `f`.  The literals are written with `EscapeQuote` and read by the SQL
rules of the dialect. -/
def inList (d : Dialect) (files : List Str) (f : Str) : Bool :=
  files.any fun g => SqlSpec.readString d (escapeQuote '\'' g ++ ['\'']) == some (f, [])

/-- /repo/ddl/migrate_cmd.go:207-255: the migrations with their history rows.  The map from
filename to index keeps the last index only, so an earlier occurrence of a repeated filename stays
without its row. `sel` are the selected rows. -/
def mkMigs (sel : Str → Option Row) : List Str → List Mig
  | [] => []
  | f :: fs =>
    (if f ∈ fs then ⟨false, f, [], none, false⟩
     else match sel f with
       | some r => ⟨true, f, r.checksum, r.startedAt, r.success⟩
       | none => ⟨false, f, [], none, false⟩) :: mkMigs sel fs

/-- /repo/ddl/migrate_cmd.go:214-255: the rows selected from the history table. -/
def selectRows (cfg : Cfg) (files : List Str) (h : History) : Str → Option Row :=
  fun f => if cfg.skipHistory then none else if inList cfg.dialect files f then h f else none

/-- Whether the database accepts the `SELECT ... WHERE filename IN (...)` of
/repo/ddl/migrate_cmd.go:219-231.  With no file selected the list is `IN ()`, which of the
supported databases only SQLite accepts. -/
def selectAccepted (cfg : Cfg) (files : List Str) : Bool :=
  cfg.skipHistory || !files.isEmpty || cfg.dialect == .sqlite

/-- /repo/ddl/migrate_cmd.go:155-329 `Run`, from the list of filenames on.  The calls before the
main loop (creating the history table, the SELECT, the session setting) are one call whose failure
ends the command; the restoring of the session setting at the end is left out here (see
`Verif.Model.Session`). -/
def migrate (cfg : Cfg) (env : Env) (names : List Str) (st : St) : Outcome × St :=
  let files := sortAndFilter names
  let r := env.res st.t
  let st := st.tick
  match r with
  | .fail | .lock => (.error none .fail false, st)
  | .crash | .crashAfter => (.crashed, st)
  | .ok =>
    if selectAccepted cfg files then
      mainLoop cfg env (mkMigs (selectRows cfg files st.db.hist) files) [] st
    else (.error none .fail false, st)

/-- A fresh run of the command against a database. -/
def start (db : DB) : St := ⟨0, db, none, []⟩

end Sqddl.Migrate
