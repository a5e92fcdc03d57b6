import Verif.Model.BatchInsert

/-!
# Specifications about batch inserts

Observables: the calls made.  Tables are maps from keys to rows.
-/

namespace BatchSpec
open Sqddl BatchInsert

/-- The arguments of the INSERT statements among the calls. -/
def inserts {α} : List (Call α) → List (Nat × List α)
  | [] => []
  | .insert n a :: cs => (n, a) :: inserts cs
  | _ :: cs => inserts cs

/-- The arguments of the UPDATE statements among the calls. -/
def updates {α} : List (Call α) → List (Nat × List α)
  | [] => []
  | .update n a :: cs => (n, a) :: updates cs
  | _ :: cs => updates cs

/-- The VALUES list for `rows` rows of `cols` columns: the placeholder of column `j` of row `i` has
number `i * cols + j + 1` (where placeholders are numbered). -/
def valuesList (d : Dialect) (rows cols : Nat) : Str :=
  Go.join b!", " ((List.range rows).map fun i =>
    b!"(" ++ Go.join b!", " ((List.range cols).map fun j =>
      match d with
      | .postgres => '$' :: Nat.toDigits 10 (i * cols + j + 1)
      | .sqlserver => '@' :: 'p' :: Nat.toDigits 10 (i * cols + j + 1)
      | _ => b!"?") ++ b!")")

/-- The largest number of parameters a database accepts in one statement. -/
def maxParams : Dialect → Option Nat
  | .sqlite => some 32766
  | .postgres => some 65535
  | .mysql => some 65535
  | .sqlserver => some 2100
  | _ => none

/-! ## Tables -/

/-- A table with unique key: at most one row per key; a row gives each column a value. -/
abbrev Table (K C V : Type) := K → Option (C → V)

/-- Upsert of one row `r` with key `k`: insert it, or replace the columns `cols` of the row that
has this key. -/
def upsert {K C V : Type} [DecidableEq K] [DecidableEq C] (cols : List C) (t : Table K C V)
    (k : K) (r : C → V) : Table K C V :=
  fun k' => if k' = k then
      match t k with
      | none => some r
      | some old => some fun c => if c ∈ cols then r c else old c
    else t k'

/-- One row after the other. -/
def upsertAll {K C V : Type} [DecidableEq K] [DecidableEq C] (cols : List C) (t : Table K C V)
    (rows : List (K × (C → V))) : Table K C V :=
  rows.foldl (fun t r => upsert cols t r.1 r.2) t

/-- SQL Server's `UPDATE ... FROM t JOIN (VALUES ...) ON keys`: every row of the table that has a
match gets the columns `cols` of the (first) match. -/
def sqlUpdate {K C V : Type} [DecidableEq K] [DecidableEq C] (cols : List C) (t : Table K C V)
    (rows : List (K × (C → V))) : Table K C V :=
  fun k => (t k).map fun old =>
    match rows.find? (·.1 = k) with
    | some r => fun c => if c ∈ cols then r.2 c else old c
    | none => old

/-- `INSERT ... SELECT ... WHERE NOT EXISTS (same key)`: the rows whose key is not in the table when
the statement starts; fails if two of them have the same key. -/
def sqlInsertMissing {K C V : Type} [DecidableEq K] (t : Table K C V) (rows : List (K × (C → V))) :
    Option (Table K C V) :=
  let new := rows.filter fun r => (t r.1).isNone
  if (new.map (·.1)).Nodup then
    some fun k => match t k with
      | some r => some r
      | none => (new.find? (·.1 = k)).map (·.2)
  else none

/-- Effect of one multi-row upsert batch on the databases.  SQLite and MySQL process the rows one
after the other; Postgres too, but rejects a statement that would touch a row twice; SQL Server
gets an UPDATE and an INSERT. -/
def sqlUpsertBatch {K C V : Type} [DecidableEq K] [DecidableEq C] (d : Dialect) (cols : List C)
    (t : Table K C V) (rows : List (K × (C → V))) : Option (Table K C V) :=
  match d with
  | .postgres => if (rows.map (·.1)).Nodup then some (upsertAll cols t rows) else none
  | .sqlserver => sqlInsertMissing (sqlUpdate cols t rows) rows
  | _ => some (upsertAll cols t rows)

/-! ## Syntax and meaning of the upsert statements -/

/-- The value a column is set to when the key is taken: a column of the new or of the old row. -/
inductive SetVal
  | new (c : Str)
  | old (c : Str)
deriving DecidableEq, Repr

/-- An INSERT with an action for rows whose key (the columns `keys`) is in the table already. -/
structure Upsert where
  keys : List Str
  sets : List (Str × SetVal)
deriving DecidableEq, Repr

/-- The text of the action of an upsert after the VALUES list. -/
def Upsert.clause (d : Dialect) (quote : Str → Str) (u : Upsert) : Str :=
  match d with
  | .mysql => b!" ON DUPLICATE KEY UPDATE " ++ Go.join b!", " (u.sets.map fun s =>
      quote s.1 ++ b!" = " ++ match s.2 with
        | .new c => b!"VALUES(" ++ quote c ++ b!")"
        | .old c => quote c)
  | _ => b!" ON CONFLICT (" ++ Go.join b!", " (u.keys.map quote) ++ b!") " ++
      if u.sets = [] then b!"DO NOTHING"
      else b!"DO UPDATE SET " ++ Go.join b!", " (u.sets.map fun s =>
        quote s.1 ++ b!" = " ++ match s.2 with
          | .new c => b!"EXCLUDED." ++ quote c
          | .old c => quote c)

/-- The new contents of an existing row. -/
def applySets {V : Type} (sets : List (Str × SetVal)) (new old : Str → V) : Str → V := fun c =>
  match sets.find? (·.1 = c) with
  | some (_, .new c') => new c'
  | some (_, .old c') => old c'
  | none => old c

/-- What an upsert of one row does to a table whose rows are identified by the columns `keys`. -/
def Upsert.eval {V : Type} [DecidableEq V] (u : Upsert) (t : Table (List V) Str V) (row : Str → V) :
    Table (List V) Str V := fun k =>
  if k = u.keys.map row then
    match t k with
    | none => some row
    | some old => some (applySets u.sets row old)
  else t k

/-- SQL Server: an UPDATE of the rows whose key is in the VALUES list (named `tmp_`), then an INSERT
of the rows whose key is not in the table. -/
structure UpdateInsert where
  table : Str
  columns : List Str
  keys : List Str
  sets : List (Str × Str)
deriving DecidableEq, Repr

/-- The condition that the keys are equal. -/
def UpdateInsert.cond (quote : Str → Str) (u : UpdateInsert) : Str :=
  Go.join b!" AND " (u.keys.map fun c => u.table ++ b!"." ++ quote c ++ b!" = tmp_." ++ quote c)

/-- The text of the UPDATE. -/
def UpdateInsert.update (quote : Str → Str) (u : UpdateInsert) (values : Str) : Str :=
  b!"UPDATE " ++ u.table ++ b!" WITH (UPDLOCK, SERIALIZABLE) SET " ++
  Go.join b!", " (u.sets.map fun s => quote s.1 ++ b!" = tmp_." ++ quote s.2) ++
  b!" FROM " ++ u.table ++ b!" JOIN (VALUES " ++ values ++ b!") AS tmp_ (" ++
  Go.join b!", " (u.columns.map quote) ++ b!") ON " ++ u.cond quote

/-- The text of the INSERT. -/
def UpdateInsert.insert (quote : Str → Str) (u : UpdateInsert) (values : Str) : Str :=
  b!"INSERT INTO " ++ u.table ++ b!" (" ++ Go.join b!", " (u.columns.map quote) ++ b!") SELECT " ++
  Go.join b!", " (u.columns.map quote) ++ b!" FROM (VALUES " ++ values ++ b!") AS tmp_ (" ++
  Go.join b!", " (u.columns.map quote) ++ b!") WHERE NOT EXISTS (SELECT 1 FROM " ++ u.table ++ b!" WHERE " ++
  u.cond quote ++ b!")"

end BatchSpec
