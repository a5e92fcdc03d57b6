import Verif.Model.Files

/-!
# `sqddl load`: which files of a directory or archive are loaded, and in which order

/repo/ddl/load_cmd.go:544-995.
-/

namespace Sqddl.Load
open Go

/-- The parts of a path between slashes. -/
def splitSlash : Str → List Str
  | [] => [[]]
  | c :: r =>
    if c = '/' then [] :: splitSlash r
    else match splitSlash r with
      | [] => [[c]]
      | x :: xs => (c :: x) :: xs

/-- `filepath.Clean` on a path with slashes: `stack` holds the parts kept so far, last first. -/
def cleanParts (rooted : Bool) : List Str → List Str → List Str
  | [], stack => stack.reverse
  | p :: r, stack =>
    if p = [] ∨ p = b!"." then cleanParts rooted r stack
    else if p = b!".." then
      match stack with
      | [] => cleanParts rooted r (if rooted then [] else [b!".."])
      | t :: ts => if t = b!".." then cleanParts rooted r (p :: stack) else cleanParts rooted r ts
    else cleanParts rooted r (p :: stack)

/-- `filepath.Clean`. -/
def clean (s : Str) : Str :=
  let rooted := hasPrefix s b!"/"
  let out := (if rooted then b!"/" else []) ++ join b!"/" (cleanParts rooted (splitSlash s) [])
  if out = [] then b!"." else out

/-- `filepath.Dir`: all but the last element, cleaned. -/
def dir (s : Str) : Str := clean (s.take (s.length - (baseName s).length))

/-- An entry of an archive: its name and contents. -/
structure Entry where
  name : Str
  text : Str := []
deriving DecidableEq, Repr

/-- What is loaded. -/
inductive Job
  /-- `loadSQL` with a file name and its contents -/
  | sql (name text : Str)
  /-- `loadCSV` -/
  | csv (name text : Str)
deriving DecidableEq, Repr

/-- The plan of a load. -/
structure Plan where
  schema : Option Entry := none
  csvs : List Entry := []
  indexes : Option Entry := none
  constraints : Option Entry := none
deriving DecidableEq, Repr

/-- The case labels of /repo/ddl/load_cmd.go:600-609 and 788-805: the file itself or the file in a
directory named like the archive. -/
def isNamed (archive file n : Str) : Bool := n = file || n = archive ++ b!"/" ++ file

/-- /repo/ddl/load_cmd.go:594-613: the last entries with the names, but the search ends once all
three have been found. -/
def locateZip (archive : Str) : List Entry → Plan → Plan
  | [], p => p
  | e :: r, p =>
    if hasPrefix e.name b!"__MACOSX/" then locateZip archive r p
    else
      let p := if isNamed archive b!"schema.sql" e.name then { p with schema := some e }
        else if isNamed archive b!"indexes.sql" e.name then { p with indexes := some e }
        else if isNamed archive b!"constraints.sql" e.name then { p with constraints := some e }
        else p
      if p.schema.isSome ∧ p.indexes.isSome ∧ p.constraints.isSome then p
      else locateZip archive r p

/-- /repo/ddl/load_cmd.go:637-649 and 836-842: the CSV files of an archive. -/
def isTopCsv (archive n : Str) : Bool :=
  hasSuffix n b!".csv" && (dir n = b!"." || dir n = archive)

/-- /repo/ddl/load_cmd.go:544-720 `loadZip`: the plan. -/
def planZip (archive : Str) (es : List Entry) : Plan :=
  { locateZip archive es {} with
    csvs := es.filter fun e => !hasPrefix e.name b!"__MACOSX/" && isTopCsv archive e.name }

/-- A buffer with the name of the file that was read last and everything that was read. -/
def addText (o : Option Entry) (e : Entry) : Option Entry :=
  some { name := e.name, text := (o.map (·.text)).getD [] ++ e.text }

/-- The buffer is not empty (`schemaBuf.Len() > 0`). -/
def filled (o : Option Entry) : Bool := (o.map (·.text)).getD [] ≠ []

/-- /repo/ddl/load_cmd.go:780-810: the contents of the named files are collected in buffers (also of
several files with the same name), until all three buffers hold something. -/
def locateTgz (archive : Str) : List Entry → Plan → Plan
  | [], p => p
  | e :: r, p =>
    let p := if isNamed archive b!"schema.sql" e.name then { p with schema := addText p.schema e }
      else if isNamed archive b!"indexes.sql" e.name then { p with indexes := addText p.indexes e }
      else if isNamed archive b!"constraints.sql" e.name then
        { p with constraints := addText p.constraints e }
      else p
    if filled p.schema ∧ filled p.indexes ∧ filled p.constraints then p
    else locateTgz archive r p

/-- /repo/ddl/load_cmd.go:722-886 `loadTgz`: the plan. -/
def planTgz (archive : Str) (es : List Entry) : Plan :=
  { locateTgz archive es {} with csvs := es.filter fun e => isTopCsv archive e.name }

/-- /repo/ddl/load_cmd.go:890-995 `loadDir`: the files directly in the directory, in the order of
`fs.WalkDir`; directories are not entered. -/
def planDir (files : List Entry) : Plan where
  schema := files.find? (·.name = b!"schema.sql")
  csvs := files.filter fun e => hasSuffix e.name b!".csv"
  indexes := files.find? (·.name = b!"indexes.sql")
  constraints := files.find? (·.name = b!"constraints.sql")

/-- /repo/ddl/load_cmd.go:276-290: an empty file is not run (this covers `schemaBuf.Len() > 0` of
`loadTgz`). -/
def sqlJob : Option Entry → List Job
  | none => []
  | some e => if e.text = [] then [] else [.sql e.name e.text]

/-- /repo/ddl/load_cmd.go:657-682, 842-850, 945-968. -/
def csvJob (e : Entry) : Job := .csv e.name e.text

/-- The jobs one after the other, until one fails. -/
def runSeq (ok : Job → Bool) : List Job → List Job × Bool
  | [] => ([], true)
  | j :: r =>
    if ok j then
      match runSeq ok r with
      | (t, b) => (j :: t, b)
    else ([j], false)

/-- Jobs in goroutines (`errgroup`): all are started, in the order `order`; `g.Wait` gives an error
if one of them failed. -/
def runPar (ok : Job → Bool) (order : List Job → List Job) (js : List Job) : List Job × Bool :=
  (order js, (order js).all ok)

/-- Two parts, the second only if the first had no error. -/
def andThen (a : List Job × Bool) (b : List Job × Bool) : List Job × Bool :=
  if a.2 then (a.1 ++ b.1, b.2) else a

/-- /repo/ddl/load_cmd.go:629-689 (and 936-977): the CSV files. `order` is `none` where they are
loaded one after the other (SQLite, and every `.tgz`). -/
def runCsvs (ok : Job → Bool) (order : Option (List Job → List Job)) (js : List Job) :
    List Job × Bool :=
  order.elim (runSeq ok js) fun o => runPar ok o js

/-- /repo/ddl/load_cmd.go:615-719 (and 817-886, 891-994): the jobs that are run. -/
def runPlan (ok : Job → Bool) (order : Option (List Job → List Job)) (p : Plan) : List Job × Bool :=
  andThen (runSeq ok (sqlJob p.schema))
    (andThen (runCsvs ok order (p.csvs.map csvJob))
      (andThen (runSeq ok (sqlJob p.indexes)) (runSeq ok (sqlJob p.constraints))))

end Sqddl.Load
