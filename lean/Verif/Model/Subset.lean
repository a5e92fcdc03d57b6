import Verif.Basic
import Verif.Model.BatchInsert

/-!
# Subset dumps: the chains of joins (/repo/ddl/subsetter.go)

The catalog holds what the subsetter asks the database for: tables, primary keys and foreign keys.
Foreign keys are compared by value where the code compares pointers: two constraints of one table that
agree in everything, name included, are one constraint.  `toSteps` gives the
tables and conditions that `toSQL` writes; `Model/SubsetText.lean` has the text.
-/

namespace Sqddl.Subset
open Go

/-- A table: schema and name (`[2]string`). -/
abbrev TableID := Str × Str

/-- A FOREIGN KEY of /repo/ddl/ddl.go:410-489 `Constraint`, as far as the subsetter looks at it. -/
structure Fkey where
  name : Str := []
  table : TableID
  columns : List Str
  refTable : TableID
  refColumns : List Str
deriving DecidableEq, Repr

/-- A table with its primary key and foreign keys. -/
structure Table where
  id : TableID
  pkey : Option (List Str)
  fkeys : List Fkey
deriving DecidableEq, Repr

/-- The tables that the filter of the dump lets through. -/
structure Cat where
  tables : List Table
deriving DecidableEq, Repr

namespace Cat
variable (cat : Cat)

/-- `cache.GetTable(cache.GetSchema(...), ...)`. -/
def lookup (t : TableID) : Option Table := cat.tables.find? (·.id = t)

/-- All foreign keys, in the order of /repo/ddl/subsetter.go:58-72. -/
def fkeys : List Fkey := cat.tables.flatMap Table.fkeys

/-- /repo/ddl/subsetter.go:58-72 `referencedBy` of a table of the catalog. -/
def referencedBy (t : TableID) : List Fkey := cat.fkeys.filter (·.refTable = t)

end Cat

/-- /repo/ddl/subsetter.go:644-648 `join`: a chain of tables; the first foreign key leads from the result
of the subset query to the first table. -/
structure Join where
  tables : List TableID
  fkeys : List Fkey
deriving DecidableEq, Repr

/-- `map[[2]string][]join`: its keys, and the joins of a key. -/
structure Joins where
  keys : List TableID
  get : TableID → List Join

/-- `joins[t] = append(joins[t], js...)`. -/
def Joins.add (m : Joins) (t : TableID) (js : List Join) : Joins where
  keys := if t ∈ m.keys then m.keys else m.keys ++ [t]
  get := fun x => if x = t then m.get x ++ js else m.get x

/-- The variables of the two loops; the top of `toVisit` comes first. -/
structure St where
  stack : List Fkey
  visited : List Fkey
  joins : Joins

/-- The table from which a foreign key is followed: against its direction in the first loop
(/repo/ddl/subsetter.go:342-344), along it in the second (/repo/ddl/subsetter.go:403-405). -/
def src (back : Bool) (f : Fkey) : TableID := if back then f.refTable else f.table

/-- The table to which a foreign key is followed. -/
def dst (back : Bool) (f : Fkey) : TableID := if back then f.table else f.refTable

/-- /repo/ddl/subsetter.go:344-366 and 405-427: the joins one table longer, except where the table is
already in the chain. -/
def extend (t : TableID) (f : Fkey) (js : List Join) : List Join :=
  (js.filter fun j => !j.tables.contains t).map fun j => ⟨j.tables ++ [t], j.fkeys ++ [f]⟩

/-- /repo/ddl/subsetter.go:368-369 and 429-432: the foreign keys that are visited next. `none`: the
table is not in the catalog, so that `table.Constraints` crashes. -/
def pushed (cat : Cat) (back : Bool) (f : Fkey) : Option (List Fkey) :=
  if back then some (cat.referencedBy f.table) else (cat.lookup f.refTable).map Table.fkeys

/-- The result of a loop. -/
inductive Out
  | done (st : St)
  | panic
  | timeout

/-- /repo/ddl/subsetter.go:341, 367-369 and 402, 428-432: visiting a foreign key. -/
def visit (back : Bool) (f : Fkey) (more rest : List Fkey) (st : St) : St where
  stack := more.reverse ++ rest
  visited := f :: st.visited
  joins := st.joins.add (dst back f) (extend (dst back f) f (st.joins.get (src back f)))

/-- /repo/ddl/subsetter.go:332-370 (`back`) and 393-433: the loops; at most `n` rounds. -/
def loop (cat : Cat) (back : Bool) : Nat → St → Out
  | 0, st => if st.stack = [] then .done st else .timeout
  | n + 1, st =>
    match st.stack with
    | [] => .done st
    | f :: rest =>
      if f ∈ st.visited then loop cat back n { st with stack := rest }
      else (pushed cat back f).elim .panic fun more => loop cat back n (visit back f more rest st)

/-- The number of rounds that is always enough (see `loop_terminates`). -/
def rounds (cat : Cat) (st : St) : Nat :=
  st.stack.length + cat.fkeys.length * (cat.fkeys.length + 1)

/-- /repo/ddl/subsetter.go:305-317 (in memory, the only exported way): the foreign key from the result of the `n`-th subset query to the
base table. -/
def baseFkey (n : Nat) (base : TableID) (pkey : List Str) : Fkey where
  table := ([], b!"query" ++ itoa n ++ b!"_")
  columns := pkey
  refTable := base
  refColumns := pkey

/-- /repo/ddl/subsetter.go:318-323. -/
def initial (n : Nat) (base : TableID) (pkey : List Str) : Joins where
  keys := [base]
  get := fun t => if t = base then [⟨[base], [baseFkey n base pkey]⟩] else []

/-- `<` on strings. -/
def strLt : Str → Str → Bool
  | [], [] => false
  | [], _ :: _ => true
  | _ :: _, [] => false
  | a :: s, b :: t => if a = b then strLt s t else a.toNat < b.toNat

/-- /repo/ddl/subsetter.go:375-385: not greater. -/
def idLe (a b : TableID) : Bool := !(if a.1 = b.1 then strLt b.2 a.2 else strLt b.1 a.1)

/-- Put a table into a sorted list. -/
def insertId (t : TableID) : List TableID → List TableID
  | [] => [t]
  | u :: r => if idLe t u then t :: u :: r else u :: insertId t r

/-- /repo/ddl/subsetter.go:371-385: the keys in order. -/
def sortIds (l : List TableID) : List TableID := l.foldr insertId []

/-- /repo/ddl/subsetter.go:371-391: all constraints of the tables reached so far. -/
def constraintsOf (cat : Cat) (keys : List TableID) : Option (List Fkey) :=
  (sortIds keys).foldl (fun acc t =>
    acc.bind fun l => (cat.lookup t).map fun tbl => l ++ tbl.fkeys) (some [])

/-- /repo/ddl/subsetter.go:324-329, 393-433: `Subset`, after the query. -/
def plainSubset (cat : Cat) (n : Nat) (base : Table) (pkey : List Str) : Out :=
  let st : St := ⟨base.fkeys.reverse, [], initial n base.id pkey⟩
  loop cat false (rounds cat st) st

/-- /repo/ddl/subsetter.go:324-433: `ExtendedSubset`, after the query. -/
def extendedSubset (cat : Cat) (n : Nat) (base : Table) (pkey : List Str) : Out :=
  let st : St := ⟨(cat.referencedBy base.id).reverse, [], initial n base.id pkey⟩
  match loop cat true (rounds cat st) st with
  | .done st =>
    match constraintsOf cat st.joins.keys with
    | none => .panic
    | some l =>
      let st := { st with stack := l.reverse }
      loop cat false (rounds cat st) st
  | o => o

/-- /repo/ddl/subsetter.go:589-615 `Tables`, up to their order: tables without a primary key are left
out. -/
def tablesOf (cat : Cat) (keys : List TableID) : List TableID :=
  keys.filter fun t => (cat.lookup t).elim false fun tbl => tbl.pkey.isSome

/-! ## The generated query -/

/-- One `JOIN`: the table, and the equations between its columns and those of the table before. -/
structure Step where
  table : TableID
  other : TableID
  on : List (Str × Str)
deriving DecidableEq, Repr

/-- /repo/ddl/subsetter.go:660-694: the loop of `toSQL` over the foreign keys, last first; `none` is
`panic("broken chain")` or an index out of range. -/
def stepsFrom : TableID → List Fkey → Option (List Step)
  | _, [] => some []
  | t, f :: r =>
    if t = f.table then
      if f.refColumns.length < f.columns.length then none
      else (stepsFrom f.refTable r).map
        (⟨f.refTable, f.table, f.refColumns.zip f.columns⟩ :: ·)
    else if t = f.refTable then
      if f.columns.length < f.refColumns.length then none
      else (stepsFrom f.table r).map
        (⟨f.table, f.refTable, f.columns.zip f.refColumns⟩ :: ·)
    else none

/-- /repo/ddl/subsetter.go:651-696 `toSQL`: the first table and the joins. -/
def toSteps (j : Join) : Option (TableID × List Step) :=
  j.tables.getLast?.bind fun t => (stepsFrom t j.fkeys.reverse).map (t, ·)

/-! ## The template of a subset query -/

/-- The result of looking for the placeholders: their positions (start and end). -/
inductive Found
  | err
  | panic
  | ok (star table : Option (Nat × Nat))
deriving DecidableEq, Repr

/-- `strings.IndexByte`. -/
def indexByte (c : Char) : Str → Option Nat
  | [] => none
  | a :: r => if a = c then some 0 else (indexByte c r).map (· + 1)

/-- `start > 0` for a placeholder that was found (`-1` if it was not). -/
def positive (o : Option (Nat × Nat)) : Bool := o.elim false fun p => 0 < p.1

/-- /repo/ddl/subsetter.go:106-131: `off` is `len(query) - len(str)`; at most `n` rounds. -/
def placeholders : Nat → Nat → Str → Option (Nat × Nat) → Option (Nat × Nat) → Found
  | 0, _, _, star, table => .ok star table
  | n + 1, off, str, star, table =>
    match indexByte '{' str with
    | none => .ok star table
    | some i =>
      match str.drop (i + 1) with
      | [] => .panic
      | c :: r =>
        if c = '{' then placeholders n (off + i + 2) r star table
        else
          match indexByte '}' (str.drop i) with
          | none => .err
          | some j =>
            if (str.drop i).take (j + 1) = b!"{*}" then
              if positive star then .err
              else placeholders n (off + i + j + 1) (str.drop (i + j + 1))
                (some (off + i, off + i + j + 1)) table
            else if positive table then .err
            else placeholders n (off + i + j + 1) (str.drop (i + j + 1)) star
              (some (off + i, off + i + j + 1))

/-- The result of filling in a template. -/
inductive Filled
  | err
  | panic
  | ok (query : Str)
deriving DecidableEq, Repr

/-- /repo/ddl/subsetter.go:97-142, 153-162, 193-197: the query that is sent. `resolve` looks up the table
with the name between the braces and gives the list of its qualified primary key columns and its
quoted name; `none`: no such table, or no primary key (errors). -/
def fillTemplate (resolve : Str → Option (Str × Str)) (query : Str) : Filled :=
  match placeholders query.length 0 query none none with
  | .err => .err
  | .panic => .panic
  | .ok star table =>
    table.elim .panic fun t =>
      (resolve ((query.take (t.2 - 1)).drop (t.1 + 1))).elim .err fun r =>
        star.elim .panic fun s =>
          if t.1 < s.2 then .panic
          else .ok (query.take s.1 ++ r.1 ++ (query.take t.1).drop s.2 ++ r.2 ++ query.drop t.2)

end Sqddl.Subset
