import Verif.Spec.DdlText
import Verif.Spec.CsvValues

/-!
# The queries of a dump

A SELECT of columns of one table, its text, and what a database answers.
-/

namespace DumpSpec
open SqlSpec DdlText Sqddl Sqddl.DumpCsv
open WipeSpec (kws readName)

/-- `SELECT cols FROM name ORDER BY order` -/
structure Select where
  cols : List Str
  name : Name
  order : List Str
deriving DecidableEq, Repr

/-- Reads names with commas between them. -/
def readNames (d : Dialect) (kw : List Str) (ts : List Tok) : Option (List Str) :=
  (splitTop 0 ts).mapM (readOne d kw)

/-- Reads the tokens of a SELECT; `kw` are the reserved words. -/
def readSelect (d : Dialect) (kw : List Str) (ts : List Tok) : Option Select :=
  (kws [b!"SELECT"] ts).bind fun r =>
  (readNames d kw (untilWord [b!"FROM"] 0 r).1).bind fun cols =>
  (kws [b!"FROM"] (untilWord [b!"FROM"] 0 r).2).bind fun r =>
  (readName d kw r).bind fun (s, n, r) =>
    if r = [] then some ⟨cols, (s, n), []⟩
    else (kws [b!"ORDER", b!"BY"] r).bind fun r =>
      (readNames d kw r).map fun order => ⟨cols, (s, n), order⟩

/-- The SELECT that a text is. -/
def selectOf (d : Dialect) (kw : List Str) (text : Str) : Option Select :=
  (lex d text).bind (readSelect d kw)

/-- A row gives a value to each column. -/
abbrev Row (F : Type) := Str → Value F

/-- The rows of a database, by schema and table. -/
abbrev Data (F : Type) := Str × Str → List (Row F)

/-- The table that a name stands for in a session with the current schema `cur`. -/
def place (cur : Str) (n : Name) : Str × Str := (n.1.getD cur, n.2)

/-- The answers of a database to a SELECT: the values of the columns in the rows of the table, in an
order in which no key comes after a greater one.  `le` compares lists of values. -/
def Answers {F} (le : List (Value F) → List (Value F) → Prop) (cur : Str) (db : Data F) (s : Select)
    (answer : List (List (Value F))) : Prop :=
  ∃ rows : List (Row F), rows.Perm (db (place cur s.name)) ∧
    rows.Pairwise (fun a b => le (s.order.map a) (s.order.map b)) ∧
    answer = rows.map fun r => s.cols.map r

/-- The columns of a table that are not computed from others. -/
def plainColumns (t : Table) : List Str :=
  (t.columns.filter fun c => decide (c.generatedExpr = [] ∧ c.isGenerated = false)).map (·.columnName)

/-- The columns of the primary key. -/
def keyColumns (t : Table) : List Str :=
  match t.constraints.find? fun x => decide (x.constraintType = b!"PRIMARY KEY" ∧ x.ignore = false) with
  | some x => x.columns
  | none => []

/-- The table, with its schema. -/
def homeOf (cur : Str) (t : Table) : Str × Str :=
  (if t.tableSchema = [] then cur else t.tableSchema, t.tableName)

end DumpSpec
