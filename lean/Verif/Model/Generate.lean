import Verif.Model.Ddl

/-!
# `sqddl generate` and `sqddl automigrate`: what is done with a generated migration

/repo/ddl/generate_cmd.go:156-217 and /repo/ddl/automigrate_cmd.go:215-297.  The generated
migration (file names, contents, warnings) is an input here.
-/

namespace Sqddl.Generate
open Go

/-- The three results of `m.sql(prefix)`; `none` is an error before that. -/
structure Migration where
  /-- names and contents -/
  files : List (Str × Str) := []
  warnings : List Str := []
deriving DecidableEq, Repr

/-- The flags that decide what is done. -/
structure Flags where
  dryRun : Bool := false
  acceptWarnings : Bool := false
deriving DecidableEq, Repr

/-- Effects on the outside world. -/
inductive Act
  | stderr (s : Str)
  | stdout (s : Str)
  /-- `os.OpenFile` with `O_CREATE|O_TRUNC`: the file exists and is empty -/
  | openFile (name : Str)
  /-- the contents have been written -/
  | writeFile (name text : Str)
  /-- a `MigrateCmd` is run on these files -/
  | migrate (files : List (Str × Str))
deriving DecidableEq, Repr

/-- Whether a call fails; the argument is what has been done so far, the call included. -/
abbrev Fails := List Act → Option Str

/-- Performs one action: result is the trace and the error, if any. -/
def act (fails : Fails) (done : List Act) (a : Act) : List Act × Option Str :=
  (done ++ [a], fails (done ++ [a]))

/-- Performs actions until one fails. -/
def acts (fails : Fails) : List Act → List Act → List Act × Option Str
  | done, [] => (done, none)
  | done, a :: r =>
    match act fails done a with
    | (done', some e) => (done', some e)
    | (done', none) => acts fails done' r

/-- `filepath.Join(cmd.OutputDir, name)` for a clean directory name (generate_cmd.go:182). -/
def outputName (dir name : Str) : Str := if dir = [] then name else dir ++ b!"/" ++ name

/-- `fmt.Errorf(s)` without arguments: a verb has no argument.  Simplified: flags, width and
precision are not parsed, the byte after `%` is taken as the verb. -/
def errorf : Str → Str
  | [] => []
  | ['%'] => b!"%!(NOVERB)"
  | '%' :: '%' :: r => '%' :: errorf r
  | '%' :: c :: r => b!"%!" ++ [c] ++ b!"(MISSING)" ++ errorf r
  | c :: r => c :: errorf r

/-- /repo/ddl/generate_cmd.go:162-164 (and automigrate_cmd.go:240-242): the error that lists the
warnings, which are part of the format string. -/
def warningsError (ws : List Str) : Str :=
  errorf (b!"warnings present (to proceed despite the warnings, use the -accept-warnings flag):\n" ++
    join b!"\n" ws)

/-- /repo/ddl/generate_cmd.go:177-215: what is done for file number `i`; `named` is
`cmd.SrcCatalog.Schemas != nil`. -/
def generateFile (fl : Flags) (dir : Str) (named : Bool) (i : Nat) (f : Str × Str) : List Act :=
  if fl.dryRun then
    if hasSuffix (outputName dir f.1) b!".undo.sql" then []
    else (if i > 0 then [.stdout b!"\n"] else []) ++
      (if named then [.stdout (b!"-- " ++ outputName dir f.1 ++ b!"\n")] else []) ++
      [.stdout f.2]
  else [.openFile (outputName dir f.1), .writeFile (outputName dir f.1) f.2,
    .stderr (outputName dir f.1 ++ b!"\n")]

/-- /repo/ddl/generate_cmd.go:156-217 `GenerateCmd.Run`.  Errors while printing to standard error
are ignored by the code; `fails` is not asked for those. -/
def generate (fl : Flags) (dir : Str) (named : Bool) (fails : Fails)
    (results : Except Str Migration) : List Act × Option Str :=
  match results with
  | .error e => ([], some e)
  | .ok m =>
    if m.warnings ≠ [] ∧ fl.acceptWarnings = false ∧ fl.dryRun = false then
      ([], some (warningsError m.warnings))
    else
      acts (fun done => match done.getLast? with | some (.stderr _) => none | _ => fails done)
        [] ((m.warnings.map fun w => Act.stderr (w ++ b!"\n")) ++
          m.files.zipIdx.flatMap fun p => generateFile fl dir named p.2 p.1)

/-- /repo/ddl/automigrate_cmd.go:249-266: what is printed for file number `i`. -/
def previewFile (several : Bool) (i : Nat) (f : Str × Str) : List Act :=
  if hasSuffix f.1 b!".undo.sql" then []
  else (if i > 0 then [.stdout b!"\n"] else []) ++
    (if several then [.stdout (b!"-- " ++ f.1 ++ b!"\n")] else []) ++ [.stdout f.2]

/-- /repo/ddl/automigrate_cmd.go:236-296: the end of `AutomigrateCmd.Run`.  The contents are handed
to a `MigrateCmd` in a map from file names (275-281), which is a function of the list of files. -/
def automigrate (fl : Flags) (fails : Fails) (results : Except Str Migration) :
    List Act × Option Str :=
  match results with
  | .error e => ([], some e)
  | .ok m =>
    if m.files = [] then ([], none)
    else if m.warnings ≠ [] ∧ fl.acceptWarnings = false ∧ fl.dryRun = false then
      ([], some (warningsError m.warnings))
    else
      acts (fun done => match done.getLast? with | some (.stderr _) => none | _ => fails done)
        [] ((m.warnings.map fun w => Act.stderr (w ++ b!"\n")) ++
          (if fl.dryRun then
            m.files.zipIdx.flatMap fun p => previewFile (decide (m.files.length > 1)) p.2 p.1
          else [.migrate m.files]))

end Sqddl.Generate
