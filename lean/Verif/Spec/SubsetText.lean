import Verif.Spec.DdlText
import Verif.Spec.DdlMeaning
import Verif.Spec.Subset

/-!
# Queries with common table expressions: their text and what they select

A reader for `WITH name (columns) AS (...), ... SELECT ... FROM ... JOIN ... ON ... ORDER BY ...`, token
by token, and the rows that such a query gives in a database.  Nothing of the functions of the model is
used.  An equation holds for two values that are not NULL and the same.
-/

namespace SelectSpec
open SqlSpec DdlText Sqddl
open WipeSpec (kws readName)
open SubsetSpec (Row Db)

/-- A column of a table or common table expression: `[schema.]table.column` -/
structure Ref where
  item : Name
  column : Str
deriving DecidableEq, Repr

/-- `JOIN item ON a = b AND ...` -/
structure JoinItem where
  item : Name
  on : List (Ref × Ref)
deriving DecidableEq, Repr

/-- `columns FROM first JOIN ...` -/
structure Sel where
  columns : List Ref
  first : Name
  joins : List JoinItem
deriving DecidableEq, Repr

/-- What is between the brackets of a common table expression: rows of literals, or `SELECT DISTINCT`s
with `UNION` between them. -/
inductive Body
  | values (rows : List (List (List Tok)))
  | union (sels : List Sel)
deriving DecidableEq, Repr

/-- `name (columns) AS (body)` -/
structure Cte where
  name : Str
  columns : List Str
  body : Body
deriving DecidableEq, Repr

/-- `WITH ctes SELECT main ORDER BY order` -/
structure Query where
  ctes : List Cte
  main : Sel
  order : List Ref
deriving DecidableEq, Repr

/-! ## Reading -/

/-- One or more items with separators between them; the number bounds that of the items. -/
def many {α : Type} (item : List Tok → Option (α × List Tok)) (sep : List Tok → Option (List Tok)) :
    Nat → List Tok → Option (List α × List Tok)
  | 0, _ => none
  | n + 1, ts => (item ts).bind fun p =>
    match sep p.2 with
    | some r => (many item sep n r).map fun q => (p.1 :: q.1, q.2)
    | none => some ([p.1], p.2)

/-- Reads a punctuation character. -/
def mark (c : Char) : List Tok → Option (List Tok)
  | t :: r => if t = .punct c then some r else none
  | [] => none

/-- Reads a name. -/
def ident (d : Dialect) (kw : List Str) : List Tok → Option (Str × List Tok)
  | t :: r => (nameOf d kw t).map fun n => (n, r)
  | [] => none

/-- Reads a column: two or three names with dots between them. -/
def readRef (d : Dialect) (kw : List Str) (ts : List Tok) : Option (Ref × List Tok) :=
  (ident d kw ts).bind fun a => (mark '.' a.2).bind fun r => (ident d kw r).bind fun b =>
    match mark '.' b.2 with
    | some r => (ident d kw r).map fun c => (⟨(some a.1, b.1), c.1⟩, c.2)
    | none => some (⟨(none, a.1), b.1⟩, b.2)

/-- Reads `a = b`. -/
def readEquation (d : Dialect) (kw : List Str) (ts : List Tok) : Option ((Ref × Ref) × List Tok) :=
  (readRef d kw ts).bind fun a => (mark '=' a.2).bind fun r => (readRef d kw r).map fun b => ((a.1, b.1), b.2)

/-- Reads what follows `JOIN`. -/
def readJoin (d : Dialect) (kw : List Str) (ts : List Tok) : Option (JoinItem × List Tok) :=
  (readName d kw ts).bind fun (s, n, r) => (kws [b!"ON"] r).bind fun r =>
    (many (readEquation d kw) (kws [b!"AND"]) r.length r).map fun p => (⟨(s, n), p.1⟩, p.2)

/-- Reads what follows `SELECT` or `SELECT DISTINCT`. -/
def readSel (d : Dialect) (kw : List Str) (ts : List Tok) : Option (Sel × List Tok) :=
  (many (readRef d kw) (mark ',') ts.length ts).bind fun cs => (kws [b!"FROM"] cs.2).bind fun r =>
  (readName d kw r).bind fun (s, n, r) =>
    match kws [b!"JOIN"] r with
    | some r => (many (readJoin d kw) (kws [b!"JOIN"]) r.length r).map fun js => (⟨cs.1, (s, n), js.1⟩, js.2)
    | none => some (⟨cs.1, (s, n), []⟩, r)

/-- Reads one row of `VALUES`: in MySQL `ROW(...)`, otherwise `(...)`. -/
def readRow (d : Dialect) (ts : List Tok) : Option (List (List Tok) × List Tok) :=
  (if d = .mysql then kws [b!"ROW"] ts else some ts).bind fun r =>
  (inBrackets r).map fun p => (splitTop 0 p.1, p.2)

/-- Reads `VALUES ...`. -/
def readValues (d : Dialect) (ts : List Tok) : Option (List (List (List Tok)) × List Tok) :=
  (kws [b!"VALUES"] ts).bind fun r => many (readRow d) (mark ',') r.length r

/-- Something that takes up all of the tokens. -/
def whole {α : Type} (o : Option (α × List Tok)) : Option α := o.bind fun p => if p.2 = [] then some p.1 else none

/-- Reads what is between the brackets of a common table expression with a list of columns.  SQL Server has
no `VALUES` there. -/
def readBody (d : Dialect) (kw : List Str) (ts : List Tok) : Option Body :=
  match kws [b!"VALUES"] ts with
  | some _ => if d = .sqlserver then none else (whole (readValues d ts)).map Body.values
  | none => (whole (many (fun ts => (kws [b!"SELECT", b!"DISTINCT"] ts).bind (readSel d kw)) (kws [b!"UNION"])
      ts.length ts)).map Body.union

/-- Reads `SELECT * FROM (VALUES ...) AS x (columns)`. -/
def readDerived (d : Dialect) (kw : List Str) (ts : List Tok) : Option (List Str × Body) :=
  (kws [b!"SELECT"] ts).bind fun r => (mark '*' r).bind fun r => (kws [b!"FROM"] r).bind fun r =>
  (inBrackets r).bind fun v => (whole (readValues d v.1)).bind fun rows => (kws [b!"AS"] v.2).bind fun r =>
  (ident d kw r).bind fun x => (whole (readCols d kw x.2)).map fun cs => (cs, Body.values rows)

/-- Reads a common table expression. -/
def readCte (d : Dialect) (kw : List Str) (ts : List Tok) : Option (Cte × List Tok) :=
  (ident d kw ts).bind fun n =>
    match readCols d kw n.2 with
    | some cs => (kws [b!"AS"] cs.2).bind fun r => (inBrackets r).bind fun p =>
      (readBody d kw p.1).map fun b => (⟨n.1, cs.1, b⟩, p.2)
    | none => (kws [b!"AS"] n.2).bind fun r => (inBrackets r).bind fun p =>
      (readDerived d kw p.1).map fun b => (⟨n.1, b.1, b.2⟩, p.2)

/-- Reads a query. -/
def readQuery (d : Dialect) (kw : List Str) (ts : List Tok) : Option Query :=
  (kws [b!"WITH"] ts).bind fun r => (many (readCte d kw) (mark ',') r.length r).bind fun cs =>
  (kws [b!"SELECT"] cs.2).bind fun r => (readSel d kw r).bind fun m =>
  (kws [b!"ORDER", b!"BY"] m.2).bind fun r => (many (readRef d kw) (mark ',') r.length r).bind fun o =>
    if o.2 = [] ∨ o.2 = [.punct ';'] then some ⟨cs.1, m.1, o.1⟩ else none

/-- The query that a text is; `kw` are the reserved words. -/
def queryOf (d : Dialect) (kw : List Str) (text : Str) : Option Query := (lex d text).bind (readQuery d kw)

/-! ## Meaning -/

section
variable (same : Str → Str → Bool) (val : List Tok → Option Str) (db : Db)

/-- Whether a reference can mean a table in a FROM clause; `same` compares names.  A name without schema
can be in any schema. -/
def Means (ref item : Name) : Bool :=
  same ref.2 item.2 && (ref.1.elim true fun s => item.1.elim true fun s' => same s s')

/-- The tables of a FROM clause, each with a row. -/
abbrev Scope := List (Name × Row)

/-- The value of a column: the reference must mean exactly one of the tables. -/
def value (sc : Scope) (r : Ref) : Option (Option Str) :=
  match sc.filter fun p => Means same r.item p.1 with
  | [p] => some (p.2 r.column)
  | _ => none

/-- SQL's `a = b` -/
def Equal (sc : Scope) (e : Ref × Ref) : Prop :=
  ∃ v, value same sc e.1 = some (some v) ∧ value same sc e.2 = some (some v)

/-- The common table expressions that can be used. -/
abbrev Env := List (Str × (Row → Prop))

/-- The rows of a table of a FROM clause: a name without a schema is that of a common table expression,
if there is one.  `([], n)` is the table `n` of the current schema. -/
def rowsOf (env : Env) (n : Name) : Row → Prop :=
  match n.1 with
  | some s => db (s, n.2)
  | none => ((env.find? fun e => same e.1 n.2).map (·.2)).getD (db ([], n.2))

/-- The rows after `JOIN`s. -/
def Joined (env : Env) : Scope → List JoinItem → Scope → Prop
  | sc, [], out => out = sc
  | sc, j :: js, out => ∃ r, rowsOf same db env j.item r ∧ (∀ e ∈ j.on, Equal same (sc ++ [(j.item, r)]) e) ∧
    Joined env (sc ++ [(j.item, r)]) js out

/-- The rows of a FROM clause. -/
def From (env : Env) (s : Sel) (out : Scope) : Prop :=
  ∃ r, rowsOf same db env s.first r ∧ Joined same db env [(s.first, r)] s.joins out

/-- The values of some columns. -/
def values (sc : Scope) (rs : List Ref) : Option (List (Option Str)) := rs.mapM (value same sc)

/-- The row of a common table expression with these values. -/
def asRow (cols : List Str) (vs : List (Option Str)) : Row := fun c => ((cols.zip vs).lookup c).getD none

/-- The rows of a common table expression. -/
def cteRows (env : Env) (c : Cte) (r : Row) : Prop :=
  ∃ vs, r = asRow c.columns vs ∧
    match c.body with
    | .values rows => ∃ row ∈ rows, vs = row.map val
    | .union sels => ∃ s ∈ sels, ∃ out, From same db env s out ∧ values same out s.columns = some vs

/-- The common table expressions of a query, each of which can use those before it. -/
def envOf : Env → List Cte → Env
  | env, [] => env
  | env, c :: cs => envOf (env ++ [(c.name, cteRows same val db env c)]) cs

/-- The answers to a query: every row of the FROM clause once, and none after one with a greater key; `le`
compares keys. -/
def Answers (le : List (Option Str) → List (Option Str) → Prop) (q : Query)
    (answer : List (List (Option Str))) : Prop :=
  ∃ outs : List Scope, outs.Nodup ∧
    (∀ o, o ∈ outs ↔ From same db (envOf same val db [] q.ctes) q.main o) ∧
    outs.Pairwise (fun a b => ∃ x y, values same a q.order = some x ∧ values same b q.order = some y ∧ le x y) ∧
    outs.mapM (fun o => values same o q.main.columns) = some answer

/-- A reference means exactly one table. -/
def Resolves (items : List Name) (r : Ref) : Prop := (items.filter fun i => Means same r.item i).length = 1

/-- The equations of `JOIN`s refer to tables that are there. -/
def ValidJoins : List Name → List JoinItem → Prop
  | _, [] => True
  | sc, j :: js => (∀ e ∈ j.on, Resolves same (sc ++ [j.item]) e.1 ∧ Resolves same (sc ++ [j.item]) e.2) ∧
    ValidJoins (sc ++ [j.item]) js

/-- The tables of a FROM clause. -/
def Sel.items (s : Sel) : List Name := s.first :: s.joins.map (·.item)

/-- A SELECT whose references all mean something. -/
def ValidSel (s : Sel) : Prop :=
  ValidJoins same [s.first] s.joins ∧ ∀ r ∈ s.columns, Resolves same s.items r

/-- A common table expression with as many values as columns, that does not use itself. -/
def ValidCte (c : Cte) : Prop :=
  match c.body with
  | .values rows => ∀ row ∈ rows, row.length = c.columns.length
  | .union sels => ∀ s ∈ sels, s.columns.length = c.columns.length ∧ ValidSel same s ∧
      ∀ i ∈ s.items, i.1 = none → same c.name i.2 = false

/-- A query that a database understands. -/
structure Valid (q : Query) : Prop where
  names : q.ctes.Pairwise fun a b => same a.name b.name = false
  ctes : ∀ c ∈ q.ctes, ValidCte same c
  main : ValidSel same q.main
  order : ∀ r ∈ q.order, Resolves same q.main.items r

end

/-! ## What is asked for -/

/-- A comparison of names: at most, upper and lower case are the same. -/
structure Compares (same : Str → Str → Bool) : Prop where
  refl : ∀ a, same a a = true
  symm : ∀ a b, same a b = true → same b a = true
  lower : ∀ a b, same a b = true → Go.toLower a = Go.toLower b

/-- A table whose name can be told from those of the common table expressions. -/
structure Free (same : Str → Str → Bool) (t : Sqddl.Subset.TableID) : Prop where
  result : ∀ n, same (SubsetSpec.resultName n).2 t.2 = false
  pkey : same b!"pkey_" t.2 = false

/-- Tables that can be told apart. -/
def Apart (same : Str → Str → Bool) (t u : Sqddl.Subset.TableID) : Prop :=
  same t.2 u.2 = true → t.1 ≠ [] ∧ u.1 ≠ [] ∧ same t.1 u.1 = false

/-- The names in a catalog: they can be told apart and from the common table expressions, and can be
quoted. -/
structure Names (d : Dialect) (same : Str → Str → Bool) (cat : Sqddl.Subset.Cat) : Prop where
  plain : ∀ t ∈ cat.tables, (t.id.1 ≠ [] → PlainName d t.id.1) ∧ PlainName d t.id.2
  apart : ∀ t ∈ cat.tables, ∀ u ∈ cat.tables, t.id ≠ u.id → Apart same t.id u.id
  free : ∀ t ∈ cat.tables, Free same t.id
  columns : ∀ f ∈ cat.fkeys, f.columns ≠ [] ∧ ∀ c ∈ f.columns ++ f.refColumns, PlainName d c

/-- The rows that were requested. -/
def requested (d : Dialect) (val : List Tok → Option Str) (pkey : List Str) (records : List (List Str)) (r : Row) : Prop :=
  ∃ rec ∈ records, r = asRow pkey (rec.map fun f => val (toks d f))

/-- An answer that consists of some columns of these rows, in the order of their keys. -/
def Lists (le : List (Option Str) → List (Option Str) → Prop) (pk cols : List Str) (rows : Row → Prop)
    (answer : List (List (Option Str))) : Prop :=
  ∃ rs : List Row, rs.Nodup ∧ (∀ r, r ∈ rs ↔ rows r) ∧ rs.Pairwise (fun a b => le (pk.map a) (pk.map b)) ∧
    answer = rs.map fun r => cols.map r

end SelectSpec
