import Verif.Model.DumpCsv

/-!
# `sqddl dump` into a directory: the tables in parallel

/repo/ddl/dump_cmd.go:594-619 (`dumpDir`) and 904-1001 (`dumpCSV`): one goroutine per table opens a
file, asks the database for the rows and writes them.  The model is a machine whose steps are those of
the goroutines, in any order; between them other users of the database change it.

The header and the text of a row are inputs here (Model/DumpCsv.lean has them).  The rows of a table
are those at the time of its query: the queries are not in one transaction
(/repo/ddl/dump_cmd.go:904).
-/

namespace Sqddl.DumpParallel
open Go

/-- What is dumped: the number of tables, the file of each table and its header line. -/
structure Setup where
  tables : Nat
  name : Nat → Str
  header : Nat → Str

/-- Where the goroutine of a table is. -/
inductive Pc
  | start
  /-- the rows of the query, how many of them have been read, and how many bytes are in the file -/
  | reading (rows : List Str) (k pos : Nat)
  | done (ok : Bool)
deriving DecidableEq, Repr

/-- The rows of the tables, the files and the goroutines. -/
structure State where
  db : Nat → List Str
  files : Str → Option Str := fun _ => none
  pcs : Nat → Pc := fun _ => .start

/-- How a step ends. -/
inductive Outcome
  | ok
  /-- the file was not opened, or a row was not read into the variables, or not written -/
  | err
  /-- the query failed, after the file had been opened -/
  | noQuery
  /-- the connection broke while the rows were being read: `rows.Next` returns `false` -/
  | broken
deriving DecidableEq, Repr

/-- One step of goroutine `i`, the buffer of its file being written to the file up to `m` bytes, or a
change of the database by others. -/
inductive Event
  | run (i : Nat) (o : Outcome)
  | flush (i m : Nat)
  | other (db : Nat → List Str)

/-- What the goroutine has given to the `csv.Writer` after `k` rows. -/
def text (header : Str) (rows : List Str) (k : Nat) : Str := header ++ (rows.take k).flatten

/-- Writing to a file at a position, as a file that was opened twice has two positions. -/
def writeAt (f : Str) (pos : Nat) (b : Str) : Str := f.take pos ++ b ++ f.drop (pos + b.length)

/-- A function with another value at one place. -/
def put {α β : Type} [DecidableEq α] (f : α → β) (i : α) (x : β) : α → β := fun j => if j = i then x else f j

variable (u : Setup)

/-- The last bytes of the buffer are written and the goroutine returns,
/repo/ddl/dump_cmd.go:995-1000 and 612-613. -/
def finish (s : State) (i : Nat) (rows : List Str) (k pos : Nat) : State :=
  { s with
    files := put s.files (u.name i)
      (some (writeAt ((s.files (u.name i)).getD []) pos ((text (u.header i) rows k).drop pos)))
    pcs := put s.pcs i (.done true) }

/-- One step of the machine. -/
def step (s : State) : Event → State
  | .other db => { s with db := db }
  | .flush i m =>
    match s.pcs i with
    | .reading rows k pos =>
      let b := ((text (u.header i) rows k).drop pos).take m
      { s with
        files := put s.files (u.name i) (some (writeAt ((s.files (u.name i)).getD []) pos b))
        pcs := put s.pcs i (.reading rows k (pos + b.length)) }
    | _ => s
  | .run i o =>
    match s.pcs i with
    | .start =>
      if i < u.tables then
        match o with
        | .ok => { s with files := put s.files (u.name i) (some []), pcs := put s.pcs i (.reading (s.db i) 0 0) }
        | .err => { s with pcs := put s.pcs i (.done false) }
        | _ => { s with files := put s.files (u.name i) (some []), pcs := put s.pcs i (.done false) }
      else s
    | .reading rows k pos =>
      match o with
      | .ok =>
        if k < rows.length then { s with pcs := put s.pcs i (.reading rows (k + 1) pos) }
        else finish u s i rows k pos
      | .broken => finish u s i rows k pos
      | _ => { s with pcs := put s.pcs i (.done false) }
    | .done _ => s

/-- After the steps. -/
def run (s : State) (es : List Event) : State := es.foldl (step u) s

end Sqddl.DumpParallel
