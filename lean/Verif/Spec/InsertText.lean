import Verif.Spec.SubsetText
import Verif.Spec.Batch

/-!
# Statements that insert rows: their text and what they do

A reader for `INSERT INTO t (...) VALUES (...) ON CONFLICT ...` and for the two statements that take its
place in SQL Server, `UPDATE t ... FROM t JOIN (VALUES ...) ...` and `INSERT INTO t (...) SELECT ... FROM
(VALUES ...) ... WHERE NOT EXISTS (...)`, and the effect of these statements on a table.  Nothing of the
functions of the model is used.
-/

namespace InsertSpec
open SqlSpec Sqddl
open DdlText (Name inBrackets splitTop readCols optKw)
open WipeSpec (kws readName)
open SelectSpec (many mark ident readRef readEquation whole Scope Means Resolves)
open SubsetSpec (Row)
open BatchSpec (SetVal applySets)

/-- A parameter of a statement: with a number, or the next one. -/
inductive Param
  | num (n : Nat)
  | next
deriving DecidableEq, Repr

/-- What is done with a row whose key is in the table already. -/
inductive Action
  | refuse
  | nothing (keys : List Str)
  | set (keys : Option (List Str)) (sets : List (Str × SetVal))
deriving DecidableEq, Repr

/-- `INSERT INTO table (columns) [OVERRIDING SYSTEM VALUE] VALUES rows action` -/
structure Insert where
  table : Name
  columns : List Str
  overriding : Bool
  rows : List (List Param)
  action : Action
deriving DecidableEq, Repr

/-- `(VALUES rows) AS name (columns)` -/
structure Values where
  rows : List (List Param)
  name : Str
  columns : List Str
deriving DecidableEq, Repr

/-- `UPDATE table WITH (...) SET sets FROM first JOIN values ON on` -/
structure UpdateFrom where
  table : Name
  sets : List (Str × SelectSpec.Ref)
  first : Name
  values : Values
  on : List (SelectSpec.Ref × SelectSpec.Ref)
deriving DecidableEq, Repr

/-- `INSERT INTO table (columns) SELECT selected FROM values WHERE NOT EXISTS (SELECT 1 FROM inner WHERE on)` -/
structure InsertMissing where
  table : Name
  columns : List Str
  selected : List Str
  values : Values
  inner : Name
  on : List (SelectSpec.Ref × SelectSpec.Ref)
deriving DecidableEq, Repr

inductive Stmt
  | insert (i : Insert)
  | update (u : UpdateFrom)
  | missing (m : InsertMissing)
deriving DecidableEq, Repr

/-! ## Reading -/

/-- A decimal number. -/
def number (w : Str) : Option Nat :=
  if w ≠ [] ∧ w.all Go.isDigit then some (Nat.ofDigitChars 10 w 0) else none

/-- Reads a parameter: `$3` in Postgres, `@p3` in SQL Server, `?` otherwise. -/
def readParam (d : Dialect) (ts : List Tok) : Option Param :=
  match d, ts with
  | .postgres, [.punct '$', .word w] => (number w).map .num
  | .postgres, _ => none
  | .sqlserver, [.punct '@', .word ('p' :: w)] => (number w).map .num
  | .sqlserver, _ => none
  | _, [.punct '?'] => some .next
  | _, _ => none

/-- Reads `(a, b, ...)`. -/
def readRow (d : Dialect) (ts : List Tok) : Option (List Param × List Tok) :=
  (inBrackets ts).bind fun p => ((splitTop 0 p.1).mapM (readParam d)).map fun r => (r, p.2)

/-- Reads what follows `VALUES`. -/
def readRows (d : Dialect) (ts : List Tok) : Option (List (List Param) × List Tok) :=
  many (readRow d) (mark ',') ts.length ts

/-- Reads `column = value` of an action. -/
def readSet (d : Dialect) (kw : List Str) (ts : List Tok) : Option ((Str × SetVal) × List Tok) :=
  (ident d kw ts).bind fun c => (mark '=' c.2).bind fun r =>
    if d = .mysql then
      match kws [b!"VALUES"] r with
      | some r => (readCols d kw r).bind fun p => match p.1 with
        | [x] => some ((c.1, .new x), p.2)
        | _ => none
      | none => (ident d kw r).map fun x => ((c.1, .old x.1), x.2)
    else (kws [b!"EXCLUDED"] r).bind fun r => (mark '.' r).bind fun r =>
      (ident d kw r).map fun x => ((c.1, .new x.1), x.2)

/-- Reads what follows the rows. -/
def readAction (d : Dialect) (kw : List Str) (ts : List Tok) : Option Action :=
  if ts = [] then some .refuse
  else if d = .mysql then (kws [b!"ON", b!"DUPLICATE", b!"KEY", b!"UPDATE"] ts).bind fun r =>
    (whole (many (readSet d kw) (mark ',') r.length r)).map (.set none)
  else if d = .sqlserver then none
  else (kws [b!"ON", b!"CONFLICT"] ts).bind fun r => (readCols d kw r).bind fun ks =>
    match kws [b!"DO", b!"NOTHING"] ks.2 with
    | some r => if r = [] then some (.nothing ks.1) else none
    | none => (kws [b!"DO", b!"UPDATE", b!"SET"] ks.2).bind fun r =>
      (whole (many (readSet d kw) (mark ',') r.length r)).map (.set (some ks.1))

/-- Reads an INSERT with VALUES. -/
def readInsert (d : Dialect) (kw : List Str) (ts : List Tok) : Option Insert :=
  (kws [b!"INSERT", b!"INTO"] ts).bind fun r => (readName d kw r).bind fun (s, n, r) =>
  (readCols d kw r).bind fun cs =>
  (kws [b!"VALUES"] (optKw [b!"OVERRIDING", b!"SYSTEM", b!"VALUE"] cs.2).2).bind fun r =>
  if (optKw [b!"OVERRIDING", b!"SYSTEM", b!"VALUE"] cs.2).1 ∧ d ≠ .postgres then none else
  (readRows d r).bind fun rows => (readAction d kw rows.2).map fun a =>
    ⟨(s, n), cs.1, (optKw [b!"OVERRIDING", b!"SYSTEM", b!"VALUE"] cs.2).1, rows.1, a⟩

/-- Reads `(VALUES ...) AS name (columns)`. -/
def readValues (d : Dialect) (kw : List Str) (ts : List Tok) : Option (Values × List Tok) :=
  (inBrackets ts).bind fun v => (kws [b!"VALUES"] v.1).bind fun r => (whole (readRows d r)).bind fun rows =>
  (kws [b!"AS"] v.2).bind fun r => (ident d kw r).bind fun n => (readCols d kw n.2).map fun cs =>
    (⟨rows, n.1, cs.1⟩, cs.2)

/-- Reads `column = [schema.]table.column`. -/
def readAssign (d : Dialect) (kw : List Str) (ts : List Tok) : Option ((Str × SelectSpec.Ref) × List Tok) :=
  (ident d kw ts).bind fun c => (mark '=' c.2).bind fun r => (readRef d kw r).map fun x => ((c.1, x.1), x.2)

/-- Reads an UPDATE with a JOIN; the hints about locks do not matter here. -/
def readUpdate (d : Dialect) (kw : List Str) (ts : List Tok) : Option UpdateFrom :=
  (kws [b!"UPDATE"] ts).bind fun r => (readName d kw r).bind fun (s, n, r) =>
  (kws [b!"WITH"] r).bind fun r => (inBrackets r).bind fun h => (kws [b!"SET"] h.2).bind fun r =>
  (many (readAssign d kw) (mark ',') r.length r).bind fun sets => (kws [b!"FROM"] sets.2).bind fun r =>
  (readName d kw r).bind fun (s', n', r) => (kws [b!"JOIN"] r).bind fun r => (readValues d kw r).bind fun v =>
  (kws [b!"ON"] v.2).bind fun r => (whole (many (readEquation d kw) (kws [b!"AND"]) r.length r)).map fun on =>
    ⟨(s, n), sets.1, (s', n'), v.1, on⟩

/-- Reads an INSERT with SELECT. -/
def readMissing (d : Dialect) (kw : List Str) (ts : List Tok) : Option InsertMissing :=
  (kws [b!"INSERT", b!"INTO"] ts).bind fun r => (readName d kw r).bind fun (s, n, r) =>
  (readCols d kw r).bind fun cs => (kws [b!"SELECT"] cs.2).bind fun r =>
  (many (ident d kw) (mark ',') r.length r).bind fun sel => (kws [b!"FROM"] sel.2).bind fun r =>
  (readValues d kw r).bind fun v => (kws [b!"WHERE", b!"NOT", b!"EXISTS"] v.2).bind fun r =>
  (inBrackets r).bind fun q => if q.2 ≠ [] then none else
  (kws [b!"SELECT", b!"1", b!"FROM"] q.1).bind fun r => (readName d kw r).bind fun (s', n', r) =>
  (kws [b!"WHERE"] r).bind fun r => (whole (many (readEquation d kw) (kws [b!"AND"]) r.length r)).map fun on =>
    ⟨(s, n), cs.1, sel.1, v.1, (s', n'), on⟩

/-- Reads a statement.  The last two are read as SQL Server has them. -/
def readStmt (d : Dialect) (kw : List Str) (ts : List Tok) : Option Stmt :=
  match readInsert d kw ts with
  | some i => some (.insert i)
  | none => if d ≠ .sqlserver then none else
    match readUpdate d kw ts with
    | some u => some (.update u)
    | none => (readMissing d kw ts).map .missing

/-- The statement that a text is; `kw` are the reserved words. -/
def stmtOf (d : Dialect) (kw : List Str) (text : Str) : Option Stmt := (lex d text).bind (readStmt d kw)

/-! ## Parameters -/

section
variable (args : List (Option Str))

/-- The values of the parameters of a row; `k` parameters without number are before it. -/
def fill : Nat → List Param → Option (List (Option Str) × Nat)
  | k, [] => some ([], k)
  | k, .num n :: ps => if n = 0 then none else (args[n - 1]?).bind fun v => (fill k ps).map fun p => (v :: p.1, p.2)
  | k, .next :: ps => (args[k]?).bind fun v => (fill (k + 1) ps).map fun p => (v :: p.1, p.2)

/-- The values of all rows. -/
def fillRows : Nat → List (List Param) → Option (List (List (Option Str)))
  | _, [] => some []
  | k, r :: rs => (fill args k r).bind fun p => (fillRows p.2 rs).map (p.1 :: ·)

end

/-! ## Effects -/

/-- The table that a statement is about: its name, the columns of its key, and the values of columns that
are not given. -/
structure Target where
  name : Name
  key : List Str
  default : Row

/-- A row with these values. -/
def rowOf (base : Row) (cols : List Str) (vs : List (Option Str)) : Row := fun c =>
  ((cols.zip vs).lookup c).getD (base c)

section
variable (same eqv : Str → Str → Bool)

/-- SQL's `v = w` -/
def equal : Option Str → Option Str → Bool
  | some v, some w => eqv v w
  | _, _ => false

/-- Rows that cannot both be in a table: their keys are the same. -/
def clash (key : List Str) (a b : Row) : Bool := key ≠ [] && key.all fun c => equal eqv (a c) (b c)

/-- Inserts a row. -/
def insertRow (key : List Str) (act : Action) (t : List Row) (r : Row) : Option (List Row) :=
  match t.findIdx? (clash eqv key r) with
  | none => some (t ++ [r])
  | some i => match act with
    | .refuse => none
    | .nothing _ => some t
    | .set _ sets => some (t.modify i (applySets sets r))

/-- The columns after ON CONFLICT must be those of a key. -/
def Action.fits (key : List Str) : Action → Bool
  | .refuse => true
  | .nothing ks => ks.all (key.contains ·) && key.all (ks.contains ·)
  | .set ks sets => (match ks with
      | none => true
      | some ks => ks.all (key.contains ·) && key.all (ks.contains ·)) &&
    -- other changes of the key are not needed here
    sets.all fun s => !key.contains s.1 || s.2 == .old s.1

/-- Postgres refuses to change a row twice in one statement. -/
def Action.once (d : Dialect) (key : List Str) (rows : List Row) : Action → Bool
  | .set _ _ => d ≠ .postgres || decide (rows.Pairwise fun a b => clash eqv key a b = false)
  | _ => true

/-- The effect of an INSERT with VALUES. -/
def Insert.run (d : Dialect) (tg : Target) (args : List (Option Str)) (i : Insert) (t : List Row) : Option (List Row) :=
  (fillRows args 0 i.rows).bind fun vs =>
  if i.table ≠ tg.name ∨ ¬ i.columns.Nodup ∨ ¬ (vs.all (·.length = i.columns.length)) ∨ !i.action.fits tg.key ∨
    !i.action.once eqv d tg.key (vs.map (rowOf tg.default i.columns)) then none
  else (vs.map (rowOf tg.default i.columns)).foldlM (insertRow eqv tg.key i.action) t

/-- The rows of `(VALUES ...) AS name (columns)`. -/
def Values.rowsOf (args : List (Option Str)) (v : Values) : Option (List Row) :=
  (fillRows args 0 v.rows).bind fun vs =>
    if v.columns.Nodup ∧ vs.all (·.length = v.columns.length) then some (vs.map (rowOf (fun _ => none) v.columns)) else none

/-- The value of a column: in the scope of the SELECT it is in, or else in the scope around that. -/
def lookup (inner outer : Scope) (r : SelectSpec.Ref) : Option (Option Str) :=
  if inner.any fun p => Means same r.item p.1 then SelectSpec.value same inner r else SelectSpec.value same outer r

/-- Whether equations hold. -/
def holds (inner outer : Scope) (on : List (SelectSpec.Ref × SelectSpec.Ref)) : Bool :=
  on.all fun e => match lookup same inner outer e.1, lookup same inner outer e.2 with
    | some v, some w => equal eqv v w
    | _, _ => false

/-- A row with new values. -/
def assign (sc : Scope) (sets : List (Str × SelectSpec.Ref)) (r : Row) : Row := fun c =>
  match sets.lookup c with
  | some x => (SelectSpec.value same sc x).getD none
  | none => r c

instance (items : List Name) (r : SelectSpec.Ref) : Decidable (Resolves same items r) := by
  unfold Resolves; infer_instance

/-- The effect of an UPDATE with a JOIN: every row gets the values of the first row of the values that it
is joined with. -/
def UpdateFrom.run (tg : Target) (args : List (Option Str)) (u : UpdateFrom) (t : List Row) : Option (List Row) :=
  (u.values.rowsOf args).bind fun vs =>
  let items : List Name := [u.first, (none, u.values.name)]
  if u.table ≠ tg.name ∨ u.first ≠ tg.name ∨ u.sets.any (fun s => tg.key.contains s.1) ∨
    ¬ (u.sets.all fun s => decide (Resolves same items s.2)) ∨
    ¬ (u.on.all fun e => decide (Resolves same items e.1) && decide (Resolves same items e.2)) then none
  else some (t.map fun r =>
    match vs.find? fun v => holds same eqv [(u.first, r), ((none, u.values.name), v)] [] u.on with
    | some v => assign same [(u.first, r), ((none, u.values.name), v)] u.sets r
    | none => r)

/-- The effect of an INSERT with SELECT. -/
def InsertMissing.run (tg : Target) (args : List (Option Str)) (m : InsertMissing) (t : List Row) : Option (List Row) :=
  (m.values.rowsOf args).bind fun vs =>
  if m.table ≠ tg.name ∨ m.inner ≠ tg.name ∨ ¬ m.columns.Nodup ∨ m.selected.length ≠ m.columns.length then none
  else ((vs.filter fun v => !t.any fun r => holds same eqv [(m.inner, r)] [((none, m.values.name), v)] m.on).map
    fun v => rowOf tg.default m.columns (m.selected.map v)).foldlM (insertRow eqv tg.key .refuse) t

/-- The effect of a statement on the rows of a table; `none` if it is refused. -/
def Stmt.run (d : Dialect) (tg : Target) (args : List (Option Str)) : Stmt → List Row → Option (List Row)
  | .insert i => i.run eqv d tg args
  | .update u => u.run same eqv tg args
  | .missing m => m.run same eqv tg args

/-- The effect of the texts of statements, each with its parameters. -/
def runTexts (d : Dialect) (kw : List Str) (tg : Target) : List (Str × List (Option Str)) → List Row → Option (List Row)
  | [], t => some t
  | (text, args) :: r, t => (stmtOf d kw text).bind fun s => (s.run same eqv d tg args t).bind (runTexts d kw tg r)

end

/-! ## Tables as maps -/

/-- The row with a key. -/
def byKey (key : List Str) (t : List Row) : BatchSpec.Table (List (Option Str)) Str (Option Str) :=
  fun k => t.find? fun r => key.map r = k

/-- The database takes the keys of these rows to be the same exactly if they are the same text.  No part of
a key is NULL then. -/
def Sees (eqv : Str → Str → Bool) (key : List Str) (all : List Row) : Prop :=
  ∀ a ∈ all, ∀ b ∈ all, clash eqv key a b = true ↔ key.map a = key.map b

/-- No two rows have the same key. -/
def Keyed (key : List Str) (t : List Row) : Prop := (t.map key.map).Nodup

/-- Names of tables are compared; the name that the values have is not that of the table. -/
structure Apart (same : Str → Str → Bool) (table : Str) : Prop where
  refl : ∀ s, same s s = true
  tmp : same b!"tmp_" table = false
  name : same table b!"tmp_" = false

end InsertSpec
