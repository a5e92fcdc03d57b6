import Verif.Model.Migrate
import Verif.Spec.Files

/-!
# Specifications about `migrate`

Only the observables of the model (events, effects, history rows, outcomes) are used here, not its
functions.
-/

namespace MigrateSpec
open FileSpec Sqddl Sqddl.Migrate

/-- A filename that a SQL string literal written with `EscapeQuote` denotes (see C21): no two
adjacent quotes before its end, and no backslash on MySQL. -/
def PlainName (d : Dialect) (f : Str) : Prop :=
  ¬ SqlSpec.HasInnerPair '\'' f ∧ (d = .mysql → '\\' ∉ f)

/-- The history has a successful row for the file and, if the file is repeatable, the row's
checksum is that of the current contents. -/
def UpToDate (env : Env) (h : History) (f : Str) : Prop :=
  ∃ r, h f = some r ∧ r.success = true ∧
    (Repeatable f → ∃ c, env.files f = some c ∧ r.checksum = env.sha (crlfToLf c))

/-- The files that are to be executed: the migrations among the listed names that are not up to
date, repeatables last. -/
noncomputable def pending (cfg : Cfg) (env : Env) (h : History) (names : List Str) : List Str :=
  open Classical in
  (names.filter fun f => decide (IsMigration f ∧ ¬ Repeatable f) &&
    (cfg.skipHistory || decide (¬ UpToDate env h f))) ++
  (names.filter fun f => decide (IsMigration f ∧ Repeatable f) &&
    (cfg.skipHistory || decide (¬ UpToDate env h f)))

/-- A batch of files runs inside a transaction. -/
def InTx (d : Dialect) (fs : List Str) : Prop :=
  fs.length > 1 ∨ ∃ f, fs = [f] ∧
    ((¬ EndsWith f b!".txoff.sql" ∧ d ≠ .mysql) ∨ EndsWith f b!".tx.sql")

/-- The files executed in a log. -/
def execs : List Ev → List Str
  | [] => []
  | .exec f :: l => f :: execs l
  | _ :: l => execs l

/-- How one batch was processed: its files, the files executed by each attempt, the undo events,
the effects it had on the database, how it ended, and the outcome of its last database call. -/
structure Seg where
  files : List Str
  attempts : List (List Str)
  undo : List Ev
  effects : List Eff
  outcome : Outcome
  last : Res

/-- The log entries of a segment. -/
def Seg.events (s : Seg) : List Ev := .batch s.files :: (s.attempts.flatten.map .exec ++ s.undo)

/-- Every file has a successful row, a repeatable one with the checksum of its contents, and no
other row changed. -/
structure RowsWritten (env : Env) (fs : List Str) (h h' : History) : Prop where
  frame : ∀ g, g ∉ fs → h' g = h g
  rows : ∀ f ∈ fs, ∃ r, h' f = some r ∧ r.success = true
  uptodate : fs.Nodup → ∀ f ∈ fs, UpToDate env h' f

/-- Rows are unchanged or belong to one of the files and say `success = false`. -/
def RowsFailed (fs : List Str) (h h' : History) : Prop :=
  ∀ g, h' g = h g ∨ (g ∈ fs ∧ ∃ r, h' g = some r ∧ r.success = false)

/-- The text is one statement: its only semicolon is followed by nothing but white space. -/
def OneStatement (c : Str) : Prop :=
  ∃ a b, c = a ++ ';' :: b ∧ ';' ∉ a ∧ ∀ x ∈ b, Go.isSpace x = true

/-- The batch may be attempted again after a lock timeout: it is transactional, or a single
statement. -/
def Retryable (cfg : Cfg) (env : Env) (fs : List Str) : Prop :=
  InTx cfg.dialect fs ∨ ∃ f c, fs = [f] ∧ env.files f = some c ∧ OneStatement c

/-- What is allowed to happen when a batch is processed, from database state `db` to `db'`. -/
structure GoodSeg (cfg : Cfg) (env : Env) (s : Seg) (db db' : DB) : Prop where
  nonempty : s.files ≠ []
  shape : s.files.length > 1 → cfg.dialect ≠ .mysql ∧
    ∀ f ∈ s.files, ¬ EndsWith f b!".tx.sql" ∧ ¬ EndsWith f b!".txoff.sql"
  /-- every attempt executes the first files of the batch in order -/
  attempts_prefix : ∀ a ∈ s.attempts, a <+: s.files
  attempts_bound : s.attempts.length ≤ max 1 cfg.maxAttempts.toNat
  attempts_lock : (∀ t, env.res t ≠ .lock) → s.attempts.length ≤ 1
  attempts_retry : ¬ Retryable cfg env s.files → s.attempts.length ≤ 1
  complete : s.outcome = .ok → s.attempts.getLast? = some s.files ∧ s.undo = []
  /-- the file an error is reported for is the last one executed, or cannot be read -/
  failing : ∀ f e uf, s.outcome = .error (some f) e uf → ∃ a b, s.files = a ++ f :: b ∧
    (s.attempts.getLast? = some (a ++ [f]) ∨ (s.attempts.getLast? = some a ∧ env.files f = none))
  undo_only : s.undo = [] ∨ (¬ Retryable cfg env s.files ∧ ∃ f, s.files = [f] ∧
    s.undo = [.undo f] ∧ (env.files (undoFile f)).isSome)
  undo_always : ¬ Retryable cfg env s.files → (∃ f e uf, s.outcome = .error (some f) e uf) →
    ∃ f, s.files = [f] ∧ ((env.files (undoFile f)).isSome → s.undo = [.undo f])
  eff : db'.eff = db.eff ++ s.effects
  tx : InTx cfg.dialect s.files →
    (s.effects = s.files.map .script ∧ (s.outcome = .ok ∨ s.outcome = .crashed) ∧
      (cfg.skipHistory = true → db'.hist = db.hist) ∧
      (cfg.skipHistory = false → RowsWritten env s.files db.hist db'.hist)) ∨
    (s.effects = [] ∧ s.outcome ≠ .ok ∧ RowsFailed s.files db.hist db'.hist)
  notx : ¬ InTx cfg.dialect s.files → ∃ f, s.files = [f] ∧
    (∀ e ∈ s.effects, e = .script f ∨ e = .part f ∨ e = .undo f) ∧
    (s.outcome = .ok → .script f ∈ s.effects ∧ (cfg.skipHistory = true → db'.hist = db.hist) ∧
      (cfg.skipHistory = false → RowsWritten env s.files db.hist db'.hist)) ∧
    (s.outcome ≠ .ok → RowsFailed s.files db.hist db'.hist ∨
      (s.outcome = .crashed ∧ .script f ∈ s.effects ∧ cfg.skipHistory = false ∧
        RowsWritten env s.files db.hist db'.hist))
  /-- a failed file gets a row with `success = false`, unless recording it failed -/
  failed_row : ∀ f uf, s.outcome = .error (some f) .fail uf → cfg.skipHistory = false →
    s.last = .ok → ∃ r, db'.hist f = some r ∧ r.success = false

/-- Batches processed one after the other; only the last one may have gone wrong. -/
inductive Trace (cfg : Cfg) (env : Env) : DB → List Seg → DB → Prop
  | nil (db : DB) : Trace cfg env db [] db
  | cons {db db1 db2 : DB} {s : Seg} {segs : List Seg} (h : GoodSeg cfg env s db db1)
      (ok : s.outcome = .ok ∨ segs = []) (t : Trace cfg env db1 segs db2) :
      Trace cfg env db (s :: segs) db2

end MigrateSpec
