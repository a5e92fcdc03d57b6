import Verif.Model.Load

/-!
# `sqddl load`: the CSV files in parallel

/repo/ddl/load_cmd.go:346-541 (`loadCSV`), 629-689 (`loadZip`), 842-868 (`loadTgz`), 924-977
(`loadDir`): every CSV file is loaded in a transaction of its own, by a goroutine of its own unless
the database is SQLite or the archive a `.tgz`.  The model is a machine whose steps are the
statements of the goroutines; which one runs next, on which connection of the pool a transaction
begins and how each statement ends is the input of the machine.

The texts of the statements are elsewhere (Model/BatchInsert.lean, Model/Session.lean); here file
`i` is a number of statements that write (batches, /repo/ddl/batch_insert.go:316-395) and every
statement that was written carries the session setting (time zone of Postgres, foreign key checks of
MySQL) it was run under.  The queries before the setting (`GetCurrentSchema`, `getColumnInfo`, lines
364-396) change nothing and fail like the query for the setting, with which they are one step.
-/

namespace Sqddl.LoadParallel

/-- How a statement ends: it worked, it was refused without effect, or the answer was lost. -/
inductive Outcome
  | ok
  | err
  | lost
deriving DecidableEq, Repr

/-- A statement that wrote: the file, the number of the statement in the file, and the session
setting under which it was run. -/
structure Write (V : Type) where
  file : Nat
  no : Nat
  value : V
deriving DecidableEq, Repr

/-- A connection: the session setting, and in a transaction the setting at its beginning and what has
been written in it. -/
structure Conn (V : Type) where
  value : V
  tx : Option (V × List (Write V)) := none
deriving DecidableEq, Repr

/-- Where a goroutine is; `c` is the connection of its transaction and `old` the setting to be
restored (`none`: there is nothing to restore, /repo/ddl/load_cmd.go:1103-1105). -/
inductive Pc (V : Type)
  /-- before `BeginTx` -/
  | start
  /-- before the query for the setting -/
  | show (c : Nat)
  /-- before the statement that changes the setting -/
  | assign (c : Nat) (old : V)
  /-- `k` statements have written -/
  | insert (c : Nat) (old : Option V) (k : Nat)
  /-- before `restoreSessionValue` after the last statement, /repo/ddl/load_cmd.go:533 -/
  | restore (c : Nat) (old : Option V)
  /-- before `tx.Commit`, /repo/ddl/load_cmd.go:538 -/
  | commit (c : Nat)
  /-- after an error, before the deferred `restoreSessionValue`, /repo/ddl/load_cmd.go:411 -/
  | undo (c : Nat) (old : Option V)
  /-- before the deferred `tx.Rollback`, /repo/ddl/load_cmd.go:347 -/
  | rollback (c : Nat)
  /-- returned; `true` is no error -/
  | done (ok : Bool)
deriving DecidableEq, Repr

/-- The connection that a goroutine is using. -/
def Pc.conn {V : Type} : Pc V → Option Nat
  | .start | .done _ => none
  | .show c | .assign c _ | .insert c _ _ | .restore c _ | .commit c | .undo c _ | .rollback c => some c

/-- Where the transactions begin. -/
inductive Mode
  /-- `cmd.DB.BeginTx` in goroutines, /repo/ddl/load_cmd.go:934-952: a connection of the pool that no
  other transaction is using -/
  | pool
  /-- `conn.BeginTx` in a loop, /repo/ddl/load_cmd.go:670-683, 842-868 and 953-966: the connection of
  the command, after the files before without error -/
  | loop
  /-- `conn.BeginTx` in goroutines, /repo/ddl/load_cmd.go:651-669: the connection of the command -/
  | shared
deriving DecidableEq, Repr

/-- What `BEGIN` does on a connection that is in a transaction (an input of the model). -/
inductive Nested
  /-- it commits the transaction and begins another (MySQL) -/
  | commits
  /-- it gives a warning and does nothing (Postgres with the driver pgx) -/
  | joins
  /-- it is an error (Postgres with the driver pq) -/
  | fails
deriving DecidableEq, Repr

/-- What is loaded, and how. -/
structure Setup (V : Type) where
  /-- the number of CSV files -/
  files : Nat
  /-- the number of statements of a file that write -/
  size : Nat → Nat
  /-- the setting the code asks for: `UTC`, or `0` -/
  want : V
  mode : Mode
  nested : Nested := .commits
  /-- rolling back undoes a change of the setting -/
  transactional : Bool

/-- The connections, the goroutines and what has been committed, in the order of the commits. -/
structure State (V : Type) where
  conns : Nat → Conn V
  pcs : Nat → Pc V
  log : List (Write V) := []

/-- A function with another value at one place. -/
def put {α : Type} (f : Nat → α) (i : Nat) (x : α) : Nat → α := fun j => if j = i then x else f j

/-- One step: the goroutine of file `i` goes on (a transaction begins on connection `c`), or its
transaction is rolled back because the context was cancelled after an error of another goroutine
(`errgroup.WithContext`, /repo/ddl/load_cmd.go:634 and 929; `(*sql.Tx).awaitDone`). -/
inductive Event
  | run (i c : Nat) (o : Outcome)
  | abort (i : Nat)
deriving DecidableEq, Repr

section
variable {V : Type} [DecidableEq V] (u : Setup V)

/-- Whether goroutine `i` may begin a transaction on connection `c`. -/
def mayBegin (s : State V) (i c : Nat) : Bool :=
  decide (i < u.files) &&
  match u.mode with
  | .pool => (List.range u.files).all fun j => (s.pcs j).conn ≠ some c
  | .loop => decide (c = 0) &&
      (List.range u.files).all fun j =>
        if j < i then s.pcs j = .done true else if i < j then s.pcs j = .start else true
  | .shared => decide (c = 0)

/-- `COMMIT` on a connection: what was written, and the connection. -/
def Conn.commit (c : Conn V) : List (Write V) × Conn V :=
  match c.tx with
  | none => ([], c)
  | some (_, p) => (p, { c with tx := none })

/-- `ROLLBACK` on a connection. -/
def Conn.rollback (c : Conn V) : Conn V :=
  match c.tx with
  | none => c
  | some (v, _) => { value := if u.transactional then v else c.value, tx := none }

/-- A statement that writes: in the transaction, or without one at once. -/
def Conn.write (c : Conn V) (w : Write V) : List (Write V) × Conn V :=
  match c.tx with
  | none => ([w], c)
  | some (v, p) => ([], { c with tx := some (v, p ++ [w]) })

/-- Goroutine `i` and connection `c` go on; `w` is committed. -/
def State.set (s : State V) (i : Nat) (p : Pc V) (c : Nat) (x : Conn V) (w : List (Write V) := []) :
    State V :=
  { conns := put s.conns c x, pcs := put s.pcs i p, log := s.log ++ w }

/-- `BeginTx`, /repo/ddl/load_cmd.go:658, 675, 858, 942 and 958. -/
def begin (s : State V) (i c : Nat) (o : Outcome) : State V :=
  if o ≠ .ok then { s with pcs := put s.pcs i (.done false) }
  else match (s.conns c).tx with
    | none => s.set i (.show c) c { s.conns c with tx := some ((s.conns c).value, []) }
    | some (_, p) =>
      match u.nested with
      | .commits => s.set i (.show c) c { s.conns c with tx := some ((s.conns c).value, []) } p
      | .joins => s.set i (.show c) c (s.conns c)
      | .fails => { s with pcs := put s.pcs i (.done false) }

/-- `loadCSV` goes on by one statement: /repo/ddl/load_cmd.go:346-541 and, for the setting,
1086-1118.  A `COMMIT` that is refused ends the transaction without effect, and `tx.Rollback` does
nothing after it. -/
def advance (s : State V) (i : Nat) (o : Outcome) : State V :=
  match s.pcs i with
  | .start | .done _ => s
  | .show c =>
    let x := s.conns c
    if o ≠ .ok then s.set i (.rollback c) c x
    else if x.value = u.want then s.set i (.insert c none 0) c x
    else s.set i (.assign c x.value) c x
  | .assign c old =>
    let x := s.conns c
    match o with
    | .ok => s.set i (.insert c (some old) 0) c { x with value := u.want }
    | .err => s.set i (.rollback c) c x
    | .lost => s.set i (.rollback c) c { x with value := u.want }
  | .insert c old k =>
    let x := s.conns c
    if k < u.size i then
      let r := x.write ⟨i, k, x.value⟩
      match o with
      | .ok => s.set i (.insert c old (k + 1)) c r.2 r.1
      | .err => s.set i (.undo c old) c x
      | .lost => s.set i (.undo c old) c r.2 r.1
    else if o = .ok then s.set i (.restore c old) c x
    else s.set i (.undo c old) c x
  | .restore c old =>
    let x := s.conns c
    match old with
    | none => s.set i (.commit c) c x
    | some v =>
      match o with
      | .ok => s.set i (.commit c) c { x with value := v }
      | .err => s.set i (.rollback c) c x
      | .lost => s.set i (.rollback c) c { x with value := v }
  | .commit c =>
    let x := s.conns c
    match o with
    | .ok => s.set i (.done true) c x.commit.2 x.commit.1
    | .err => s.set i (.done false) c (x.rollback u)
    | .lost => s.set i (.done false) c x.commit.2 x.commit.1
  | .undo c old =>
    let x := s.conns c
    match old with
    | none => s.set i (.rollback c) c x
    | some v => s.set i (.rollback c) c (if o = .err then x else { x with value := v })
  | .rollback c => s.set i (.done false) c ((s.conns c).rollback u)

/-- One step of the machine. -/
def step (s : State V) : Event → State V
  | .run i c o =>
    match s.pcs i with
    | .start => if mayBegin u s i c then begin u s i c o else s
    | _ => advance u s i o
  | .abort i =>
    match (s.pcs i).conn with
    | some c => s.set i (.done false) c ((s.conns c).rollback u)
    | none =>
      match s.pcs i with
      | .start => { s with pcs := put s.pcs i (.done false) }
      | _ => s

/-- Before the CSV files: no transaction, and the settings the connections happen to have. -/
def initial (value : Nat → V) : State V where
  conns c := { value := value c }
  pcs _ := .start

/-- After the steps; the process may end at any point, so this is also what a crash leaves (a
transaction that was not committed is rolled back by the server). -/
def run (value : Nat → V) (es : List Event) : State V := es.foldl (step u) (initial value)

end

end Sqddl.LoadParallel
