import Verif.Model.Files
import Verif.Model.Dsn

/-!
# The command line: /repo/main.go and the flags of the subcommands

Go's package `flag` (`FlagSet.Parse` with `ContinueOnError`) is modelled by `parse`; what it
prints is left out, and so is everything that is printed by main.go.
-/

namespace Sqddl.CommandLine

/-- The four types of flags: /repo/ddl/migrate_cmd.go:91-99 (`StringVar`, `IntVar`, `BoolVar`) and
/repo/ddl/dump_cmd.go:126 (`Var` with the `strslice` of /repo/ddl/ddl.go:1068-1077). -/
inductive Kind
  | bool | int | string | strs
deriving DecidableEq, Repr

/-- A flag with its default, as in /repo/ddl/migrate_cmd.go:91; `false` and numbers as texts. -/
structure Flag where
  name : Str
  kind : Kind
  default : Str
deriving DecidableEq, Repr

/-- `flagset.StringVar`, as in /repo/ddl/migrate_cmd.go:91 -/
def str (name default : Str) : Flag := ⟨name, .string, default⟩
/-- `flagset.BoolVar`, as in /repo/ddl/migrate_cmd.go:98 -/
def sw (name : Str) : Flag := ⟨name, .bool, b!"false"⟩
/-- `flagset.IntVar`, as in /repo/ddl/migrate_cmd.go:95 -/
def num (name default : Str) : Flag := ⟨name, .int, default⟩
/-- `flagset.Var` of a `strslice`, as in /repo/ddl/dump_cmd.go:126 -/
def strs (name : Str) : Flag := ⟨name, .strs, b!""⟩

/-- The subcommands of /repo/main.go:84-192. -/
inductive Sub
  | migrate | ls | touch | rm | mv | tables | views | generate | wipe | dump | load | automigrate
deriving DecidableEq, Repr

/-- /repo/main.go:84-196: the cases of the switch; `none` is `default`. -/
def subOf (s : Str) : Option Sub :=
  if s = b!"migrate" then some .migrate
  else if s = b!"ls" then some .ls
  else if s = b!"touch" then some .touch
  else if s = b!"rm" then some .rm
  else if s = b!"mv" then some .mv
  else if s = b!"tables" then some .tables
  else if s = b!"views" then some .views
  else if s = b!"generate" then some .generate
  else if s = b!"wipe" then some .wipe
  else if s = b!"dump" then some .dump
  else if s = b!"load" then some .load
  else if s = b!"automigrate" then some .automigrate
  else none

/-- /repo/main.go:45-48: the flags of sqddl itself. -/
def mainFlags : List Flag := [str b!"db" b!"", str b!"history-table" b!""]

/-- The flags of the subcommands, in /repo/ddl: migrate_cmd.go:91-99, ls_cmd.go:64-71,
touch_cmd.go:62-64, rm_cmd.go:49-51, mv_cmd.go:51-53, tables_cmd.go:62-70, views_cmd.go:53-60,
generate_cmd.go:85-94, wipe_cmd.go:44-46, dump_cmd.go:113-129, load_cmd.go:104-113,
automigrate_cmd.go:87-97. -/
def flagsOf : Sub → List Flag
  | .migrate => [str b!"db" b!"", str b!"dir" b!"", str b!"history-table" b!"sqddl_history",
      str b!"lock-timeout" b!"1s", num b!"max-attempts" b!"10", str b!"max-delay" b!"5m",
      str b!"base-delay" b!"1s", sw b!"verbose", sw b!"skip-history-table"]
  | .ls => [str b!"db" b!"", str b!"dir" b!"", str b!"history-table" b!"sqddl_history",
      sw b!"pending", sw b!"applied", sw b!"failed", sw b!"missing", sw b!"all"]
  | .touch => [str b!"db" b!"", str b!"dir" b!"", str b!"history-table" b!"sqddl_history"]
  | .rm => [str b!"db" b!"", str b!"dir" b!"", str b!"history-table" b!"sqddl_history"]
  | .mv => [str b!"db" b!"", str b!"dir" b!"", str b!"history-table" b!"sqddl_history"]
  | .tables => [str b!"db" b!"", str b!"history-table" b!"sqddl_history", str b!"pkg" b!"_",
      str b!"file" b!"", sw b!"schema-qualified-structs", str b!"schemas" b!"",
      str b!"exclude-schemas" b!"", str b!"tables" b!"", str b!"exclude-tables" b!""]
  | .views => [str b!"db" b!"", str b!"history-table" b!"", str b!"pkg" b!"_", str b!"file" b!"",
      str b!"schemas" b!"", str b!"exclude-schemas" b!"", str b!"views" b!"",
      str b!"exclude-views" b!""]
  | .generate => [str b!"db" b!"", str b!"src" b!"", str b!"dest" b!"", str b!"output-dir" b!"",
      str b!"history-table" b!"sqddl_history", str b!"prefix" b!"", sw b!"drop-objects",
      str b!"dialect" b!"", sw b!"accept-warnings", sw b!"dry-run"]
  | .wipe => [str b!"db" b!"", str b!"history-table" b!"", sw b!"dry-run"]
  | .dump => [str b!"db" b!"", str b!"output-dir" b!"", str b!"history-table" b!"sqddl_history",
      str b!"zip" b!"", str b!"tgz" b!"", sw b!"schema-only", sw b!"data-only",
      str b!"nullstring" b!"\\N", str b!"binaryprefix" b!"0x", str b!"schemas" b!"",
      str b!"exclude-schemas" b!"", str b!"tables" b!"", str b!"exclude-tables" b!"",
      strs b!"subset", strs b!"extended-subset", sw b!"array-as-json", sw b!"uuid-as-bytes"]
  | .load => [str b!"db" b!"", str b!"dir" b!"", str b!"history-table" b!"sqddl_history",
      str b!"nullstring" b!"\\N", str b!"binaryprefix" b!"0x", num b!"batchsize" b!"1000",
      sw b!"no-nullstring", sw b!"no-binaryprefix", sw b!"verbose", sw b!"timestamp-as-integer"]
  | .automigrate => [str b!"db" b!"", str b!"dir" b!"", str b!"dest" b!"",
      str b!"history-table" b!"sqddl_history", sw b!"drop-objects", sw b!"accept-warnings",
      sw b!"dry-run", str b!"lock-timeout" b!"1s", num b!"max-attempts" b!"10",
      str b!"max-delay" b!"5m", str b!"base-delay" b!"1s"]

/-- The world outside: `strconv.ParseInt` of a flag value and `time.ParseDuration` succeed
(/repo/ddl/migrate_cmd.go:95, 130); `NormalizeDSN` (modelled in Model/Dsn; line 120); `sql.Open`
succeeds (line 124). -/
structure Env where
  isInt : Str → Bool
  isDuration : Str → Bool
  dsn : Str → Option (Dialect × Str × Str)
  opens : Dialect × Str × Str → Bool

/-- What Go's `parseOne` sees in an argument (`flagset.Parse`, /repo/main.go:52). -/
inductive Arg
  | operand
  | stop
  | bad
  | flag (name : Str) (value : Option Str)
deriving DecidableEq, Repr

/-- The first half of Go's `parseOne` (`flagset.Parse`, /repo/main.go:52,
/repo/ddl/migrate_cmd.go:109): dashes, name and the part behind `=`. -/
def argOf : Str → Arg
  | '-' :: c :: r =>
    if c = '-' ∧ r = [] then .stop
    else
      match (if c = '-' then r else c :: r) with
      | [] => .bad
      | c :: r =>
        if c = '-' ∨ c = '=' then .bad
        else
          let head := r.takeWhile (· ≠ '=')
          .flag (c :: head) (if '=' ∈ r then some (r.drop (head.length + 1)) else none)
  | _ => .operand

/-- The result of `flagset.Parse` (/repo/ddl/migrate_cmd.go:109-112): the values set, in their
order, and `flagset.Args()`; `flag.ErrHelp`; another error. -/
inductive Parsed
  | ok (sets : List (Str × Str)) (rest : List Str)
  | help
  | error
deriving DecidableEq, Repr

/-- One more value was set before (`parse`). -/
def Parsed.cons (x : Str × Str) : Parsed → Parsed
  | .ok sets rest => .ok (x :: sets) rest
  | .help => .help
  | .error => .error

/-- Go's `strconv.ParseBool` accepts these (`BoolVar`, /repo/ddl/migrate_cmd.go:98). -/
def isBool (v : Str) : Bool :=
  [b!"1", b!"t", b!"T", b!"TRUE", b!"true", b!"True",
   b!"0", b!"f", b!"F", b!"FALSE", b!"false", b!"False"].contains v

/-- `flag.Value.Set` succeeds (`flagset.Parse`, /repo/ddl/migrate_cmd.go:109; /repo/ddl/ddl.go:1074
for `strslice`). -/
def valid (env : Env) : Kind → Str → Bool
  | .bool, v => isBool v
  | .int, v => env.isInt v
  | .string, _ => true
  | .strs, _ => true

/-- `flagset.Parse` (/repo/main.go:52, /repo/ddl/migrate_cmd.go:109 and the other commands). -/
def parse (env : Env) (flags : List Flag) : List Str → Parsed
  | [] => .ok [] []
  | s :: rest =>
    match argOf s with
    | .operand => .ok [] (s :: rest)
    | .stop => .ok [] rest
    | .bad => .error
    | .flag name value =>
      match flags.find? (fun f => f.name == name) with
      | none => if name = b!"help" ∨ name = b!"h" then .help else .error
      | some f =>
        if f.kind = .bool then
          if valid env f.kind (value.getD b!"true") then
            (parse env flags rest).cons (name, value.getD b!"true")
          else .error
        else
          match value, rest with
          | some v, rest =>
            if valid env f.kind v then (parse env flags rest).cons (name, v) else .error
          | none, [] => .error
          | none, v :: rest =>
            if valid env f.kind v then (parse env flags rest).cons (name, v) else .error
termination_by args => args.length

/-- What an `XxxCommand` returns: the variables of its flags, the connection that was opened and
the file names (/repo/ddl/migrate_cmd.go:119-151). -/
structure Command where
  sub : Sub
  /-- the variable of a flag -/
  value : Str → Str
  /-- the variable of a flag that may be given many times -/
  values : Str → List Str
  conn : Option (Dialect × Str × Str)
  names : List Str

/-- The variable of a flag after `flagset.Parse` (/repo/ddl/migrate_cmd.go:91-109): the last value
that was set, or the default. -/
def varOf (flags : List Flag) (sets : List (Str × Str)) (name : Str) : Str :=
  match sets.reverse.find? (fun x => x.1 == name) with
  | some x => x.2
  | none =>
    match flags.find? (fun f => f.name == name) with
    | some f => f.default
    | none => []

/-- /repo/ddl/ddl.go:1074-1077: every value that was set. -/
def appended (sets : List (Str × Str)) (name : Str) : List Str :=
  sets.filterMap (fun x => if x.1 = name then some x.2 else none)

/-- What becomes of `flagset.Args()`: /repo/ddl/migrate_cmd.go:147-150, touch_cmd.go:91-94,
rm_cmd.go:77-80, load_cmd.go:142-145, mv_cmd.go:78-84; the other commands do not look at it. -/
def namesOf (s : Sub) (dir : Str) (rest : List Str) : List Str :=
  match s with
  | .migrate | .touch | .rm | .load => rest.map (fun f => normalizeFilename f dir)
  | .mv => (rest.take 2).map (fun f => normalizeFilename f dir)
  | _ => []

/-- The outcome of an `XxxCommand` (/repo/main.go:86-89). -/
inductive Made
  | ok (c : Command)
  | help
  | error

/-- /repo/ddl/migrate_cmd.go:129-146, automigrate_cmd.go:138-155: the three durations are empty or can
be read. -/
def durationsOk (env : Env) (value : Str → Str) : Bool :=
  [b!"lock-timeout", b!"max-delay", b!"base-delay"].all
    (fun n => value n == [] || env.isDuration (value n))

/-- MigrateCommand (/repo/ddl/migrate_cmd.go:87-152), LsCommand (ls_cmd.go:61-102), TouchCommand
(touch_cmd.go:58-96), RmCommand (rm_cmd.go:45-82), MvCommand (mv_cmd.go:47-86), TablesCommand
(tables_cmd.go:58-110), ViewsCommand (views_cmd.go:49-100), GenerateCommand
(generate_cmd.go:81-153), WipeCommand (wipe_cmd.go:40-73), DumpCommand (dump_cmd.go:108-176),
LoadCommand (load_cmd.go:100-147), AutomigrateCommand (automigrate_cmd.go:83-157).  `sources` is
false if the catalogs named by -src and -dest cannot be read (Model/GenerateSource); the
splitting of lists at commas is left out. -/
def command (env : Env) (sources : Command → Bool) (s : Sub) (args : List Str) : Made :=
  match parse env (flagsOf s) args with
  | .help => .help
  | .error => .error
  | .ok sets rest =>
    let value := varOf (flagsOf s) sets
    let names := namesOf s (value b!"dir") rest
    if s = .generate then
      let c : Command := ⟨s, value, appended sets, none, names⟩
      if sources c then .ok c else .error
    else if value b!"db" = [] then .error
    else if (s = .migrate ∨ s = .ls) ∧ value b!"dir" = [] then .error
    else
      match env.dsn (value b!"db") with
      | none => .error
      | some t =>
        if env.opens t then
          let c : Command := ⟨s, value, appended sets, some t, names⟩
          if s = .automigrate ∧ ¬ sources c then .error
          else if (s = .migrate ∨ s = .automigrate) ∧ ¬ durationsOk env value then .error
          else .ok c
        else .error

/-- What a call of sqddl does: the command whose `Run` was called, and the exit status. -/
structure Called where
  ran : Option Command
  status : Nat

/-- /repo/main.go:44-197 `main`; `args` is `os.Args[1:]`, `run c` says whether `c.Run()` returned
no error (it never returns `flag.ErrHelp`). -/
def main (env : Env) (sources : Command → Bool) (run : Command → Bool) (args : List Str) : Called :=
  match parse env mainFlags args with
  | .help => ⟨none, 0⟩
  | .error => ⟨none, 1⟩
  | .ok _ [] => ⟨none, 0⟩
  | .ok _ (sub :: rest) =>
    let n := args.length - (rest.length + 1)
    match subOf sub with
    | none => ⟨none, 0⟩
    | some s =>
      match command env sources s (args.take n ++ rest) with
      | .help => ⟨none, 0⟩
      | .error => ⟨none, 1⟩
      | .ok c => ⟨some c, if run c then 0 else 1⟩

end Sqddl.CommandLine
