import Verif.Spec.InsertText

/-!
# Statements that select, delete and rename rows by a list of texts

A reader for `SELECT ... WHERE c [NOT] IN (...) [ORDER BY ...]`, `DELETE FROM ... WHERE c IN (...)` and
`UPDATE ... SET c = '...' WHERE c = '...'`, and what these statements do with a table.  Nothing of the
functions of the model is used.
-/

namespace HistorySql
open SqlSpec Sqddl
open DdlText (Name inBrackets splitTop optKw)
open WipeSpec (kws readName)
open SelectSpec (many mark ident whole)
open SubsetSpec (Row)
open InsertSpec (Target clash equal)

/-- `column [NOT] IN (values)` -/
structure Cond where
  neg : Bool
  column : Str
  vals : List Str
deriving DecidableEq, Repr

/-- What rows are sorted by. -/
inductive Order
  /-- `CASE WHEN column LIKE pattern THEN 1 ELSE 0 END` -/
  | like (column pattern : Str)
  | column (c : Str)
deriving DecidableEq, Repr

inductive Stmt
  | select (columns : List Str) (table : Name) (cond : Cond) (order : List Order)
  | delete (table : Name) (cond : Cond)
  /-- `UPDATE table SET column = new WHERE cond = old` -/
  | update (table : Name) (column new cond old : Str)
deriving DecidableEq, Repr

/-! ## Reading -/

/-- Reads a string literal. -/
def readText : List Tok → Option (Str × List Tok)
  | .str s :: r => some (s, r)
  | _ => none

/-- Reads the literals between brackets.  Only SQLite allows none. -/
def readVals (d : Dialect) (ts : List Tok) : Option (List Str) :=
  if ts = [] then (if d = .sqlite then some [] else none)
  else (splitTop 0 ts).mapM fun x => whole (readText x)

/-- Reads `column [NOT] IN (...)`. -/
def readCond (d : Dialect) (kw : List Str) (ts : List Tok) : Option (Cond × List Tok) :=
  (ident d kw ts).bind fun c => (kws [b!"IN"] (optKw [b!"NOT"] c.2).2).bind fun r => (inBrackets r).bind fun p =>
  (readVals d p.1).map fun vs => (⟨(optKw [b!"NOT"] c.2).1, c.1, vs⟩, p.2)

/-- Reads one item of ORDER BY. -/
def readOrder (d : Dialect) (kw : List Str) (ts : List Tok) : Option (Order × List Tok) :=
  match kws [b!"CASE", b!"WHEN"] ts with
  | some r => (ident d kw r).bind fun c => (kws [b!"LIKE"] c.2).bind fun r => (readText r).bind fun p =>
    (kws [b!"THEN", b!"1", b!"ELSE", b!"0", b!"END"] p.2).map fun r => (.like c.1 p.1, r)
  | none => (ident d kw ts).map fun c => (.column c.1, c.2)

/-- Reads what follows the condition of a SELECT. -/
def readOrders (d : Dialect) (kw : List Str) (ts : List Tok) : Option (List Order) :=
  if ts = [] then some []
  else (kws [b!"ORDER", b!"BY"] ts).bind fun r => whole (many (readOrder d kw) (mark ',') r.length r)

def readSelect (d : Dialect) (kw : List Str) (ts : List Tok) : Option Stmt :=
  (many (ident d kw) (mark ',') ts.length ts).bind fun cs => (kws [b!"FROM"] cs.2).bind fun r =>
  (readName d kw r).bind fun (s, n, r) => (kws [b!"WHERE"] r).bind fun r => (readCond d kw r).bind fun c =>
  (readOrders d kw c.2).map fun o => .select cs.1 (s, n) c.1 o

def readDelete (d : Dialect) (kw : List Str) (ts : List Tok) : Option Stmt :=
  (readName d kw ts).bind fun (s, n, r) => (kws [b!"WHERE"] r).bind fun r => (whole (readCond d kw r)).map fun c =>
    .delete (s, n) c

/-- Reads `column = '...'`. -/
def readEqual (d : Dialect) (kw : List Str) (ts : List Tok) : Option ((Str × Str) × List Tok) :=
  (ident d kw ts).bind fun c => (mark '=' c.2).bind fun r => (readText r).map fun v => ((c.1, v.1), v.2)

def readUpdate (d : Dialect) (kw : List Str) (ts : List Tok) : Option Stmt :=
  (readName d kw ts).bind fun (s, n, r) => (kws [b!"SET"] r).bind fun r => (readEqual d kw r).bind fun a =>
  (kws [b!"WHERE"] a.2).bind fun r => (whole (readEqual d kw r)).map fun w => .update (s, n) a.1.1 a.1.2 w.1 w.2

/-- Reads a statement. -/
def readStmt (d : Dialect) (kw : List Str) (ts : List Tok) : Option Stmt :=
  match kws [b!"SELECT"] ts with
  | some r => readSelect d kw r
  | none => match kws [b!"DELETE", b!"FROM"] ts with
    | some r => readDelete d kw r
    | none => (kws [b!"UPDATE"] ts).bind (readUpdate d kw)

/-- The statement that a text is; `kw` are the reserved words. -/
def stmtOf (d : Dialect) (kw : List Str) (text : Str) : Option Stmt := (lex d text).bind (readStmt d kw)

/-! ## Meaning -/

/-- How a database compares texts: `=`, `LIKE` with a pattern, and the order. -/
structure Compare where
  eqv : Str → Str → Bool
  like : Str → Str → Bool
  le : Str → Str → Bool

section
variable (cmp : Compare)

/-- Whether a row meets a condition.  NULL is neither in a list nor not in it, unless the list is empty. -/
def Cond.holds (c : Cond) (r : Row) : Bool :=
  match r c.column with
  | some v => c.neg != c.vals.any (cmp.eqv v)
  | none => c.neg && c.vals.isEmpty

/-- The first of two rows may come before the second. -/
def before : List Order → Row → Row → Bool
  | [], _, _ => true
  | .like c p :: os, a, b =>
    let x := (a c).elim false (cmp.like · p)
    let y := (b c).elim false (cmp.like · p)
    if x = y then before os a b else y
  | .column c :: os, a, b =>
    match a c, b c with
    | some v, some w => if cmp.le v w && cmp.le w v then before os a b else cmp.le v w
    | none, some _ => true
    | some _, none => false
    | none, none => before os a b

/-- The answer to a query. -/
def Stmt.answer (tg : Target) (t : List Row) : Stmt → Option (List (List (Option Str)))
  | .select cs n c os =>
    if n = tg.name then some (((t.filter (c.holds cmp)).mergeSort (before cmp os)).map fun r => cs.map r) else none
  | _ => none

/-- A row with one new value. -/
def set (c v : Str) (r : Row) : Row := fun x => if x = c then some v else r x

/-- The rows of the table after a statement; `none` if it is refused, as it is when two rows would have the
same key. -/
def Stmt.run (tg : Target) (t : List Row) : Stmt → Option (List Row)
  | .delete n c => if n = tg.name then some (t.filter fun r => !c.holds cmp r) else none
  | .update n c new w old =>
    if n ≠ tg.name then none
    else
      let t' := t.map fun r => if equal cmp.eqv (r w) (some old) then set c new r else r
      if t'.Pairwise fun a b => clash cmp.eqv tg.key a b = false then some t' else none
  | _ => none

/-- The answer to the text of a query. -/
def ask (d : Dialect) (kw : List Str) (tg : Target) (t : List Row) (text : Str) : Option (List (List (Option Str))) :=
  (stmtOf d kw text).bind (Stmt.answer cmp tg t)

/-- The effect of the text of a statement. -/
def exec (d : Dialect) (kw : List Str) (tg : Target) (t : List Row) (text : Str) : Option (List Row) :=
  (stmtOf d kw text).bind (Stmt.run cmp tg t)

end

/-! ## The history table -/

/-- The table: its key is the name of the file. -/
def target (table : Str) : Target := ⟨(none, table), [b!"filename"], fun _ => none⟩

/-- Every row has a name, and no two rows have the same. -/
structure IsHistory (t : List Row) : Prop where
  named : ∀ r ∈ t, (r b!"filename").isSome
  keyed : (t.map (· b!"filename")).Nodup

/-- The names in a table. -/
def namesIn (t : List Row) : List Str := t.filterMap (· b!"filename")

/-- The database takes two of these texts to be equal exactly if they are the same. -/
def Exact (eqv : Str → Str → Bool) (names : List Str) : Prop :=
  ∀ a ∈ names, ∀ b ∈ names, eqv a b = true ↔ a = b

end HistorySql
