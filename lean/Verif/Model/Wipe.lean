import Verif.Model.Catalog
import Verif.Model.Quote

/-!
# `sqddl wipe`

/repo/ddl/wipe_cmd.go.  The queries of the introspector are inputs: what they return, or the error.
-/

namespace Sqddl.Wipe
open Go

/-- What the introspector answers (/repo/ddl/wipe_cmd.go:95-245, `dbi.Get…`). -/
structure Answers where
  currentSchema : Except Str Str
  views : Except Str (List View)
  /-- with `ConstraintTypes = {FOREIGN KEY}` -/
  constraints : Except Str (List Constraint)
  tables : Except Str (List Table)
  routines : Except Str (List Routine)
  enums : Except Str (List Enum)
  domains : Except Str (List Domain)
  extensions : Except Str (List Str)

/-- The name as written in the statements: /repo/ddl/wipe_cmd.go:116-119 (and 140-143, 167-170,
194-197, 216-219, 232-235): the schema is left out if it is empty or the current schema. -/
def qualified (d : Dialect) (cur schema name : Str) : Str :=
  (if schema ≠ [] ∧ schema ≠ cur then quoteIdentifier d schema ++ b!"." else []) ++
  quoteIdentifier d name

/-- /repo/ddl/wipe_cmd.go:111-123 -/
def dropView (d : Dialect) (cur : Str) (v : View) : Str :=
  b!"DROP " ++ (if v.isMaterialized then b!"MATERIALIZED " else []) ++ b!"VIEW IF EXISTS " ++
  qualified d cur v.viewSchema v.viewName ++
  (if d = .postgres ∨ d = .mysql then b!" CASCADE" else []) ++ b!";\n"

/-- /repo/ddl/wipe_cmd.go:139-147 -/
def dropFkey (d : Dialect) (cur : Str) (c : Constraint) : Str :=
  b!"ALTER TABLE " ++
  (qualified d cur c.tableSchema c.tableName ++ b!" DROP CONSTRAINT " ++
    quoteIdentifier d c.constraintName) ++
  (if d = .postgres then b!" CASCADE" else []) ++ b!";\n"

/-- /repo/ddl/wipe_cmd.go:160 -/
def pragma : Str := b!"PRAGMA defer_foreign_keys = 1;\n"

/-- /repo/ddl/wipe_cmd.go:166-174 -/
def dropTable (d : Dialect) (cur : Str) (t : Table) : Str :=
  b!"DROP TABLE IF EXISTS " ++ qualified d cur t.tableSchema t.tableName ++
  (if d = .postgres ∨ d = .mysql then b!" CASCADE" else []) ++ b!";\n"

/-- /repo/ddl/wipe_cmd.go:187-201 -/
def dropRoutine (d : Dialect) (cur : Str) (r : Routine) : Str :=
  b!"DROP " ++ (if r.routineType = b!"PROCEDURE" then b!"PROCEDURE " else b!"FUNCTION ") ++
  b!"IF EXISTS " ++ qualified d cur r.routineSchema r.routineName ++
  (if d = .postgres then b!" CASCADE" else []) ++ b!";\n"

/-- /repo/ddl/wipe_cmd.go:215-219 -/
def dropEnum (d : Dialect) (cur : Str) (e : Enum) : Str :=
  b!"DROP TYPE IF EXISTS " ++ qualified d cur e.enumSchema e.enumName ++ b!" CASCADE;\n"

/-- /repo/ddl/wipe_cmd.go:231-235 -/
def dropDomain (d : Dialect) (cur : Str) (e : Domain) : Str :=
  b!"DROP DOMAIN IF EXISTS " ++ qualified d cur e.domainSchema e.domainName ++ b!" CASCADE;\n"

/-- /repo/ddl/wipe_cmd.go:250 -/
def dropExtension (d : Dialect) (e : Str) : Str :=
  b!"DROP EXTENSION IF EXISTS " ++ quoteIdentifier d e ++ b!" CASCADE;\n"

/-- The statements in the order in which they are written, or the first error of the introspector:
/repo/ddl/wipe_cmd.go:95-252. -/
def stmts (d : Dialect) (a : Answers) : Except Str (List Str) := do
  let cur ← a.currentSchema
  let views ← a.views
  let s1 := views.map (dropView d cur)
  let s2 ← if d = .sqlite then pure [] else do
    let constraints ← a.constraints
    pure (constraints.map (dropFkey d cur))
  let tables ← a.tables
  let s3 := if d = .sqlite ∧ tables ≠ [] then [pragma] else []
  let s4 := tables.map (dropTable d cur)
  let s5 ← if d = .sqlite then pure [] else do
    let routines ← a.routines
    pure (routines.map (dropRoutine d cur))
  let s6 ← if d = .postgres then do
      let enums ← a.enums
      let domains ← a.domains
      let extensions ← a.extensions
      pure (enums.map (dropEnum d cur) ++ domains.map (dropDomain d cur) ++
        (extensions.filter (· ≠ b!"plpgsql")).map (dropExtension d))
    else pure []
  pure (s1 ++ s2 ++ s3 ++ s4 ++ s5 ++ s6)

/-- /repo/ddl/wipe_cmd.go:108-110 (and before every other statement): a newline before every
statement but the first. -/
def addStmt (buf s : Str) : Str := (if buf.length > 0 then buf ++ b!"\n" else buf) ++ s

/-- The buffer after all statements have been written. -/
def buffer (ss : List Str) : Str := ss.foldl addStmt []

/-- What the command does to its surroundings after introspecting. -/
inductive Act
  | stdout (s : Str)
  /-- `DB.ExecContext` -/
  | exec (s : Str)
  | begin
  /-- `tx.ExecContext` -/
  | txExec (s : Str)
  | commit
  | rollback
deriving DecidableEq, Repr

/-- Outcomes of the calls: `none` is success. -/
structure Outcomes where
  stdout : Option Str := none
  exec : Option Str := none
  begin : Option Str := none
  txExec : Option Str := none
  commit : Option Str := none

/-- /repo/ddl/wipe_cmd.go:254-292: what is done with the queries.  A deferred `tx.Rollback()`
after a commit has no effect and is left out there. -/
def finish (d : Dialect) (dryRun : Bool) (o : Outcomes) (queries : Str) : List Act × Option Str :=
  if dryRun then ([.stdout queries], o.stdout)
  else if queries = [] then ([], none)
  else if d = .mysql then ([.exec queries], o.exec)
  else match o.begin with
    | some e => ([.begin], some e)
    | none =>
      match o.txExec with
      | some e => ([.begin, .txExec queries, .rollback], some e)
      | none =>
        match o.commit with
        | some e => ([.begin, .txExec queries, .commit, .rollback], some e)
        | none => ([.begin, .txExec queries, .commit], none)

/-- /repo/ddl/wipe_cmd.go:76-293 `WipeCmd.Run` (with a database and a dialect). -/
def run (d : Dialect) (dryRun : Bool) (a : Answers) (o : Outcomes) : List Act × Option Str :=
  match stmts d a with
  | .error e => ([], some e)
  | .ok ss => finish d dryRun o (buffer ss)

end Sqddl.Wipe
