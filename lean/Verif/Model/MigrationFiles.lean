import Verif.Model.Render
import Verif.Model.PqArray

/-!
# The files of a generated migration

What the `sql` methods of the four migrations have in common: the numbering of the files and the
texts of the simplest statements.
-/

namespace Sqddl.Files
open Go
open Sqddl.Wipe (qualified buffer)

/-- A file: its name and its content. -/
abbrev File := Str × Str

/-- `fmt.Sprintf("%02d", n)`, /repo/ddl/mysql_migration.go:278 and the like -/
def pad2 (n : Nat) : Str := if n < 10 then '0' :: itoa n else itoa n

/-- `strings.ReplaceAll(s, " ", "_")`, /repo/ddl/mysql_migration.go:276 and the like -/
def noSpaces (s : Str) : Str := s.map fun c => if c = ' ' then '_' else c

/-- `n++` and `prefix+"_"+fmt.Sprintf("%02d", n)+suffix` for every file of a step:
/repo/ddl/mysql_migration.go:275-278, 292-295, 307 and the like.  A step is a list of files that
share a number, each given by the end of its name and its content. -/
def numbered (pre : Str) (steps : List (List File)) : List File :=
  steps.zipIdx.flatMap fun p => p.1.map fun f => (pre ++ b!"_" ++ pad2 (p.2 + 1) ++ f.1, f.2)

/-- `strconv.Atoi` with the error dropped: 0 for a syntax error, the nearest number for a number
that does not fit. -/
def atoi0 (s : Str) : Int :=
  match parseInt64 s with
  | some n => n
  | none =>
    if ('0' :: s.tail).all isDigit ∧ s.tail ≠ [] ∧ s.head? = some '-' then -(2 ^ 63)
    else if (s.all isDigit ∧ s ≠ []) ∨
      (('0' :: s.tail).all isDigit ∧ s.tail ≠ [] ∧ s.head? = some '+') then 2 ^ 63 - 1
    else 0

/-- What a warning about a column is about.  The wording of the messages is not modelled. -/
inductive Unsafe
  /-- "changing type from … to … may be unsafe" -/
  | type
  /-- a smaller or larger limit -/
  | limit
  /-- a smaller precision -/
  | precision
  /-- another scale -/
  | scale
  /-- a new column with a default -/
  | addDefault
  /-- a new column with an identity -/
  | addIdentity
  /-- setting NOT NULL -/
  | notNull
deriving DecidableEq, Repr

/-- A warning about a column, `fmt.Sprintf("%s: column %q …", tableName, columnName, …)`: the table
as it is written in SQL, and the column. -/
structure Warning where
  table : Str
  column : Str
  about : Unsafe
deriving DecidableEq, Repr

/-- `DROP SCHEMA IF EXISTS`, /repo/ddl/mysql_migration.go:303, 321 -/
def dropSchema (d : Dialect) (name : Str) : Str :=
  b!"DROP SCHEMA IF EXISTS " ++ quoteIdentifier d name ++ b!";\n"

/-- `DROP TABLE IF EXISTS`, /repo/ddl/mysql_migration.go:342, 370 -/
def dropTable (d : Dialect) (cur : Str) (t : Table) : Str :=
  b!"DROP TABLE IF EXISTS " ++ qualified d cur t.tableSchema t.tableName ++ b!";\n"

end Sqddl.Files
