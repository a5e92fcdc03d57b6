import Verif.Model.BatchInsert

/-!
# Model of the reports of failed migrations

`AnnotateError` and `IsLockTimeout` of the driver packages, as `MigrateCmd.run` uses them
(/repo/ddl/migrate_cmd.go:505-525), and `fmt.Errorf` as far as they use it.
-/

namespace Sqddl

/-- An error: its text, and the code of the database error in it, if `errors.As` finds one
(/repo/drivers/ddlpostgres/ddlpostgres.go:21-25, /repo/drivers/ddlsqlserver/ddlsqlserver.go:22-27). -/
structure Err where
  text : Str
  code : Option Str
deriving DecidableEq, Repr

/-- What is between `%` and the verb: flags, width and precision.  Simplified: `*` and `[` are taken
for verbs, and a verb is one byte (`fmt.Errorf`, /repo/drivers/ddlpostgres/ddlpostgres.go:60). -/
def inDirective (c : Char) : Bool :=
  c == '+' || c == '-' || c == '#' || c == ' ' || c == '.' || ('0' ≤ c && c ≤ '9')

/-- `fmt.Errorf` with one error as argument (/repo/drivers/ddlpostgres/ddlpostgres.go:60): the text
and whether the error was wrapped.  `dir`: we are behind a `%`; `arg`: the argument if it is still
unused.  Simplified: an argument that is printed by another verb than `%w` is printed as by `%v`. -/
def errorfGo : Bool → Option Str → Str → Str × Bool
  | false, _, [] => ([], false)
  | true, _, [] => (b!"%!(NOVERB)", false)
  | false, arg, c :: r =>
    if c = '%' then errorfGo true arg r
    else let t := errorfGo false arg r; (c :: t.1, t.2)
  | true, arg, c :: r =>
    if inDirective c then errorfGo true arg r
    else if c = '%' then let t := errorfGo false arg r; ('%' :: t.1, t.2)
    else match arg with
      | some a => let t := errorfGo false none r; (a ++ t.1, t.2 || c = 'w')
      | none => let t := errorfGo false none r; (b!"%!" ++ [c] ++ b!"(MISSING)" ++ t.1, t.2)

/-- `fmt.Errorf(format, err)` (/repo/drivers/ddlpostgres/ddlpostgres.go:60,
/repo/drivers/ddlsqlserver/ddlsqlserver.go:56). -/
def errorfOf (format : Str) (e : Err) : Err :=
  let t := errorfGo false (some e.text) format
  ⟨t.1, if t.2 then e.code else none⟩

/-- The parts of a `*pq.Error` (/repo/drivers/ddlpostgres/ddlpostgres.go:39-59); `position` is what
`strconv.Atoi` makes of `Position` (line 44), `none` if it is not a number. -/
structure PqError where
  position : Option Nat
  detail : Str
  hint : Str
deriving DecidableEq, Repr

/-- /repo/drivers/ddlpostgres/ddlpostgres.go:38-61; `pq` is what `errors.As` finds in the error,
`none` as result: the slice is out of range. -/
def pgAnnotate (e : Err) (pq : Option PqError) (query : Str) : Option Err :=
  match pq with
  | none => some e
  | some p =>
    let tail := (if p.detail ≠ [] then b!"\ndetail: " ++ p.detail else []) ++
      (if p.hint ≠ [] then b!"\nhint: " ++ p.hint else [])
    match p.position with
    | some pos =>
      if query.length < pos then none
      else some (errorfOf (b!"line " ++ itoa ((query.take pos).count '\n' + 1) ++ b!": " ++ b!"%w" ++ tail) e)
    | none => if p.detail = [] ∧ p.hint = [] then some e else some (errorfOf (b!"%w" ++ tail) e)

/-- The parts of an `mssql.Error` (/repo/drivers/ddlsqlserver/ddlsqlserver.go:46-55). -/
structure MssqlError where
  lineNo : Nat
  all : List Str
deriving DecidableEq, Repr

/-- /repo/drivers/ddlsqlserver/ddlsqlserver.go:45-57 -/
def mssqlAnnotate (e : Err) (ms : Option MssqlError) : Err :=
  match ms with
  | none => e
  | some m =>
    errorfOf (b!"line " ++ itoa m.lineNo ++ b!": %w" ++
      (if m.all.length > 1 then (m.all.map (fun s => b!"\n" ++ s)).flatten else [])) e

/-- `IsLockTimeout` (/repo/drivers/ddlpostgres/ddlpostgres.go:20-26,
/repo/drivers/ddlpgx/ddlpgx.go:19-25, /repo/drivers/ddlmysql/ddlmysql.go:18-24,
/repo/drivers/ddlsqlserver/ddlsqlserver.go:21-27, /repo/drivers/ddloracle/ddloracle.go:16-22); the
numbers of MySQL, SQL Server and Oracle are written as texts.  SQLite has no such function
(/repo/drivers/ddlsqlite3/ddlsqlite3.go:14-31), which counts as false
(/repo/ddl/migrate_cmd.go:391). -/
def isLockTimeout (d : Dialect) (e : Err) : Bool :=
  match e.code with
  | none => false
  | some c =>
    match d with
    | .postgres => c == b!"55P03"
    | .mysql => c == b!"1205"
    | .sqlserver => c == b!"1222"
    | .oracle => c == b!"4021"
    | _ => false

end Sqddl
