import Verif.Model.Migrate
import Verif.Model.BatchInsert

/-!
# Model of the commands on the history table

`touch` (/repo/ddl/touch_cmd.go), `ls` (/repo/ddl/ls_cmd.go), `rm` (/repo/ddl/rm_cmd.go) and `mv`
(/repo/ddl/mv_cmd.go), and of the search for migration files.
-/

namespace Sqddl

/-! ## directories -/

mutual
/-- A file or a directory.  -/
inductive Node
  | file
  | dir (es : Entries)
/-- The entries of a directory, in the order of `fs.ReadDir`. -/
inductive Entries
  | nil
  | cons (name : Str) (n : Node) (rest : Entries)
end

/-- /repo/ddl/touch_cmd.go:282-297: the files below `repeatable/`; `path` is the path of the directory
(joined with `/`). -/
def walkRepeatable (path : Str) : Entries → List Str
  | .nil => []
  | .cons name .file rest => (path ++ '/' :: name) :: walkRepeatable path rest
  | .cons name (.dir es) rest =>
    walkRepeatable (path ++ '/' :: name) es ++ walkRepeatable path rest

/-- /repo/ddl/touch_cmd.go:282-297 `walkDir`: the files of the root directory and below `repeatable/`;
other directories are skipped.  Errors of the file system, which end the command, are left out. -/
def walkDir : Entries → List Str
  | .nil => []
  | .cons name .file rest => name :: walkDir rest
  | .cons name (.dir es) rest =>
    (if name = b!"repeatable" then walkRepeatable name es else []) ++ walkDir rest

namespace Migrate

/-- How a history command ends. -/
inductive CmdRes
  | ok | error | crashed
deriving DecidableEq, Repr

/-! ## touch -/

/-- /repo/ddl/touch_cmd.go:150-178: the rows written by `touch`.  The row buffer is reused from one
row to the next (/repo/ddl/batch_insert.go:320), so the checksum field of a file that is not
repeatable holds what the row before left there: `buf`. -/
def touchRows (env : Env) (now : Nat) : (buf : Str) → List Str → Option (List (Str × Row))
  | _, [] => some []
  | buf, f :: fs =>
    if isRepeatable f then
      match env.files f with
      | none => none
      | some c =>
        let k := env.sha (crlfToLf c)
        (touchRows env now k fs).map ((f, ⟨k, some now, true⟩) :: ·)
    else (touchRows env now buf fs).map ((f, ⟨buf, some now, true⟩) :: ·)

/-- /repo/ddl/touch_cmd.go:140-145, /repo/ddl/migrate_cmd.go:418-423,535-540: the batch insert into the
history table. -/
def historyInsert (d : Dialect) : BatchInsert :=
  ⟨0, d, [], b!"sqddl_history", [b!"filename", b!"checksum", b!"started_at", b!"time_taken_ns", b!"success"],
    [b!"filename"], []⟩

/-- The rows of each INSERT statement of a batch insert into the history table. -/
def historyBatches (d : Dialect) (rows : List (Str × Row)) : List (List (Str × Row)) :=
  let rec go : List (BatchInsert.Call (Str × Row)) → List (List (Str × Row))
    | [] => []
    | .insert _ a :: cs => a :: go cs
    | _ :: cs => go cs
  go ((historyInsert d).loop true 0 [] (rows.map fun r => [r]))

/-- Effect of one upsert statement (see `BatchSpec.sqlUpsertBatch`): Postgres rejects a statement that
touches a row twice, SQL Server one that inserts a key twice.  (On SQL Server this is an UPDATE followed
by an INSERT; the two are one call here.) -/
def upsertStmt (d : Dialect) (rows : List (Str × Row)) (h : History) : Option History :=
  let accepted : Bool := match d with
    | .postgres => decide (rows.map Prod.fst).Nodup
    | .sqlserver => decide ((rows.filter fun r => (h r.1).isNone).map Prod.fst).Nodup
    | _ => true
  if accepted then some (rows.foldl (fun h r => h.upsert r.1 r.2) h) else none

/-- Statements of a transaction one after the other, `n` is the number of the next call.  Result: the
private state, or how the command ends. -/
def upsertStmts (env : Env) (d : Dialect) : Nat → List (List (Str × Row)) → History → Except CmdRes (Nat × History)
  | n, [], h => .ok (n, h)
  | n, b :: bs, h =>
    match env.res n with
    | .crash | .crashAfter => .error .crashed
    | .fail | .lock => .error .error
    | .ok => match upsertStmt d b h with
      | none => .error .error
      | some h => upsertStmts env d (n + 1) bs h

/-- /repo/ddl/touch_cmd.go:99-188 `TouchCmd.Run`.  `explicit`: the names were given on the command line
and are checked for existence (lines 124-134), otherwise they come from `walkDir`.  Calls: the creation
of the table, BEGIN, the upserts, COMMIT.  If a repeatable file cannot be read the transaction is rolled
back; the statements sent before that are left out. -/
def touch (d : Dialect) (env : Env) (explicit : Bool) (names : List Str) (h : History) : CmdRes × History :=
  match env.res 0 with
  | .crash | .crashAfter => (.crashed, h)
  | .fail | .lock => (.error, h)
  | .ok =>
    if explicit && names.any fun f => (env.files f).isNone then (.error, h)
    else
      match env.res 1 with
      | .crash | .crashAfter => (.crashed, h)
      | .fail | .lock => (.error, h)
      | .ok =>
        match touchRows env (env.now 1) [] (sortAndFilter names) with
        | none => (.error, h)
        | some rows =>
          match upsertStmts env d 2 (historyBatches d rows) h with
          | .error e => (e, h)
          | .ok (n, h') =>
            match env.res n with
            | .ok => (.ok, h')
            | .crashAfter => (.crashed, h')
            | .crash => (.crashed, h)
            | .fail | .lock => (.error, h)

/-! ## rm and mv -/

/-- The name denoted by the literal written for `f` with `EscapeQuote`
(/repo/ddl/rm_cmd.go:120, /repo/ddl/mv_cmd.go:122-123); `none` if the text is not one complete literal. -/
def literalName (d : Dialect) (f : Str) : Option Str :=
  match SqlSpec.readString d (escapeQuote '\'' f ++ ['\'']) with
  | some (v, []) => some v
  | _ => none

/-- /repo/ddl/rm_cmd.go:114-123: the DELETE statement; `none` if the database rejects it because a
literal is not complete.  (Such a statement could also do something else; that is left out.) -/
def rmStmt (d : Dialect) (names : List Str) (h : History) : Option History :=
  if names.all fun f => (literalName d f).isSome then
    some fun g => if names.any fun f => literalName d f == some g then none else h g
  else none

/-- /repo/ddl/rm_cmd.go:85-137 `RmCmd.Run`.  Calls: the query whether the table exists, the DELETE. -/
def rm (d : Dialect) (env : Env) (tableExists : Bool) (names : List Str) (h : History) : CmdRes × History :=
  if names = [] then (.ok, h)
  else match env.res 0 with
    | .crash | .crashAfter => (.crashed, h)
    | .fail | .lock => (.error, h)
    | .ok =>
      if !tableExists then (.ok, h)
      else match env.res 1, rmStmt d names h with
        | .crash, _ => (.crashed, h)
        | .fail, _ | .lock, _ => (.error, h)
        | .ok, none => (.error, h)
        | .ok, some h' => (.ok, h')
        | .crashAfter, none => (.crashed, h)
        | .crashAfter, some h' => (.crashed, h')

/-- /repo/ddl/mv_cmd.go:120-124: the UPDATE statement; `none` if the database rejects it: a literal is
not complete, or the new name is taken (primary key). -/
def mvStmt (d : Dialect) (src dest : Str) (h : History) : Option History :=
  match literalName d src, literalName d dest with
  | some s, some t =>
    match h s with
    | none => some h
    | some r =>
      if s = t then some h
      else if (h t).isSome then none
      else some fun g => if g = t then some r else if g = s then none else h g
  | _, _ => none

/-- /repo/ddl/mv_cmd.go:89-137 `MvCmd.Run`.  The error of the UPDATE is dropped (lines 125-127:
`return nil`). -/
def mv (d : Dialect) (env : Env) (tableExists : Bool) (src dest : Str) (h : History) : CmdRes × History :=
  if src = [] ∨ dest = [] then (.error, h)
  else match env.res 0 with
    | .crash | .crashAfter => (.crashed, h)
    | .fail | .lock => (.error, h)
    | .ok =>
      if !tableExists then (.ok, h)
      else match env.res 1, mvStmt d src dest h with
        | .crash, _ => (.crashed, h)
        | .fail, _ | .lock, _ => (.ok, h)
        | .ok, none => (.ok, h)
        | .ok, some h' => (.ok, h')
        | .crashAfter, none => (.crashed, h)
        | .crashAfter, some h' => (.crashed, h')

/-! ## ls -/

/-- The four marks printed by `ls`. -/
inductive Status
  | pending | applied | failed | missing
deriving DecidableEq, Repr

/-- One line of output: mark, name, and start time if printed. -/
structure Line where
  status : Status
  name : Str
  startedAt : Option Nat
deriving DecidableEq, Repr

/-- /repo/ddl/ls_cmd.go `LsCmd`: which rows to include. -/
structure LsFlags where
  pending : Bool
  applied : Bool
  failed : Bool
  missing : Bool
  all : Bool
deriving DecidableEq, Repr

/-- /repo/ddl/ls_cmd.go:120-128. -/
def LsFlags.norm (f : LsFlags) : LsFlags :=
  if f.all then { f with pending := true, applied := true, failed := true, missing := true }
  else if !f.pending && !f.applied && !f.failed && !f.missing then
    { f with pending := true, failed := true }
  else f

/-- /repo/ddl/ls_cmd.go:196-217: the status of a file; `none` if it cannot be opened. -/
def lsStatus (env : Env) (m : Mig) : Option Status :=
  if !m.valid || m.startedAt.isNone then some .pending
  else if !m.success then some .failed
  else if isRepeatable m.filename then
    match env.files m.filename with
    | none => none
    | some c => if env.sha (crlfToLf c) ≠ m.checksum then some .pending else some .applied
  else some .applied

/-- /repo/ddl/ls_cmd.go:218-224 (and 244 for the missing ones): which lines are printed. -/
def LsFlags.shows (f : LsFlags) : Status → Bool
  | .pending => f.pending
  | .applied => f.applied
  | .failed => f.failed
  | .missing => f.missing

/-- /repo/ddl/ls_cmd.go:195-239: the main loop; the flag says whether it ran to its end. -/
def lsLoop (env : Env) (flags : LsFlags) : List Mig → List Line × Bool
  | [] => ([], true)
  | m :: ms =>
    match lsStatus env m with
    | none => ([], false)
    | some s =>
      let r := lsLoop env flags ms
      if flags.shows s then (⟨s, m.filename, m.startedAt⟩ :: r.1, r.2) else r

/-- A history table as a list of rows; `filename` is its primary key. -/
abbrev Rows := List (Str × Row)

/-- The history given by a list of rows. -/
def Rows.hist (t : Rows) : History := fun f => (t.find? (·.1 = f)).map (·.2)

/-- How the database compares texts: the test `LIKE 'repeatable/%'` (case insensitive in some
databases) and the order of filenames (collation). -/
structure Collation where
  like : Str → Bool
  le : Str → Str → Bool

/-- /repo/ddl/ls_cmd.go:256: `ORDER BY CASE WHEN filename LIKE 'repeatable/%' THEN 1 ELSE 0 END,
filename`. -/
def Collation.before (c : Collation) (a b : Str) : Bool :=
  if c.like a == c.like b then c.le a b else c.like b

/-- /repo/ddl/ls_cmd.go:244-277: the names of the rows without a file. -/
def missingNames (d : Dialect) (c : Collation) (files : List Str) (t : Rows) : List Str :=
  ((t.map (·.1)).filter fun f => !inList d files f).mergeSort c.before

/-- /repo/ddl/ls_cmd.go:104-279 `LsCmd.Run`, from the list of names found by `walkDir` on.  Calls: the
query whether the table exists, the two SELECTs. -/
def ls (d : Dialect) (env : Env) (flags : LsFlags) (names : List Str) (tableExists : Bool) (t : Rows)
    (c : Collation) : List Line × CmdRes :=
  let flags := flags.norm
  let files := sortAndFilter names
  match env.res 0 with
  | .crash | .crashAfter => ([], .crashed)
  | .fail | .lock => ([], .error)
  | .ok =>
    if !tableExists then
      let r := lsLoop env flags (mkMigs (fun _ => none) files)
      (r.1, if r.2 then .ok else .error)
    else match env.res 1 with
      | .crash | .crashAfter => ([], .crashed)
      | .fail | .lock => ([], .error)
      | .ok =>
        if files.isEmpty && d ≠ .sqlite then ([], .error) -- `IN ()`
        else
          let sel : History := fun f => if inList d files f then t.hist f else none
          let r := lsLoop env flags (mkMigs sel files)
          if !r.2 then (r.1, .error)
          else if !flags.missing then (r.1, .ok)
          else match env.res 2 with
            | .crash | .crashAfter => (r.1, .crashed)
            | .fail | .lock => (r.1, .error)
            | .ok => (r.1 ++ (missingNames d c files t).map fun f => ⟨.missing, f, none⟩, .ok)

/-! ## an interrupted read -/

/-- /repo/ddl/migrate_cmd.go:230-255: `Run` when the connection breaks while the selected rows are
read.  `rows.Next` then returns false and `rows.Err` is not asked, so the
command goes on with the rows read so far: those for which `seen` is true.  Apart from that this is
`migrate`. -/
def migrateSeen (cfg : Cfg) (env : Env) (seen : Str → Bool) (names : List Str) (st : St) : Outcome × St :=
  let files := sortAndFilter names
  let r := env.res st.t
  let st := st.tick
  match r with
  | .fail | .lock => (.error none .fail false, st)
  | .crash | .crashAfter => (.crashed, st)
  | .ok =>
    if selectAccepted cfg files then
      mainLoop cfg env
        (mkMigs (fun f => if seen f then selectRows cfg files st.db.hist f else none) files) [] st
    else (.error none .fail false, st)

end Migrate
end Sqddl
