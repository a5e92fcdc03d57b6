import Verif.Model.Subset

/-!
# What a subset dump should contain

Rows are functions from column names to values (`none` is NULL); a database says which rows a table
has.  A `FROM ... JOIN ... ON ...` is given its meaning in SQL.
-/

namespace SubsetSpec
open Sqddl.Subset

abbrev Row := Str → Option Str
abbrev Db := TableID → Row → Prop

/-- SQL's `a = b AND ...`: true only for values that are not NULL. -/
def Agree (on : List (Str × Str)) (r r' : Row) : Prop :=
  ∀ p ∈ on, ∃ v, r p.1 = some v ∧ r' p.2 = some v

/-- Row `r` of `f.table` refers to row `r'` of `f.refTable`. -/
def Refers (f : Fkey) (r r' : Row) : Prop := Agree (f.columns.zip f.refColumns) r r'

/-- The rows of the first table that `FROM from JOIN ... ON ... JOIN ... ON ...` gives. -/
def Selects (db : Db) (q : TableID × List Step) (r : Row) : Prop :=
  ∃ env : TableID → Row, env q.1 = r ∧ db q.1 r ∧
    ∀ s ∈ q.2, db s.table (env s.table) ∧ Agree s.on (env s.table) (env s.other)

/-- A valid `FROM` clause names every table once and joins to tables named before. -/
def ValidFrom : List TableID → List Step → Prop
  | _, [] => True
  | seen, s :: r => s.table ∉ seen ∧ s.other ∈ seen ∧ ValidFrom (s.table :: seen) r

/-- A call of `Subset`: the name of the common table expression with its result, the base table, its
primary key, the rows of the result, and the joins that were computed. -/
structure Call where
  num : Nat
  base : TableID
  pkey : List Str
  result : Row → Prop
  joins : TableID → List Join

/-- The name of the common table expression with the result of the `n`-th subset query. -/
def resultName (n : Nat) : TableID := ([], b!"query" ++ Sqddl.itoa n ++ b!"_")

/-- The tables that a query over a call sees: the result of the subset query has its own name. -/
def Call.db (c : Call) (db : Db) : Db :=
  fun t r => if t = resultName c.num then c.result r else db t r

/-- Two rows of a table have the same primary key. -/
def SameKey (pk : List Str) (r r' : Row) : Prop := Agree (pk.map fun c => (c, c)) r r'

/-- The query of /repo/ddl/subsetter.go:441-587 for a table with primary key `pk`: the rows of the table
whose primary key is that of a row selected by one of the joins. -/
def Dumped (db : Db) (calls : List Call) (t : TableID) (pk : List Str) (r : Row) : Prop :=
  db t r ∧ ∃ c ∈ calls, ∃ j ∈ c.joins t, ∃ q, toSteps j = some q ∧
    ∃ r', Selects (c.db db) q r' ∧ SameKey pk r' r

/-- The rows that a call of `Subset` asks for: the rows of the base table with the selected primary
keys, and all rows that they refer to, directly or indirectly. -/
inductive Needed (cat : Cat) (db : Db) (base : TableID) (pk : List Str) (result : Row → Prop) :
    TableID → Row → Prop
  | base (r q : Row) : db base r → result q → SameKey pk q r → Needed cat db base pk result base r
  | ref (f : Fkey) (r r' : Row) : Needed cat db base pk result f.table r → f ∈ cat.fkeys →
      db f.refTable r' → Refers f r r' → Needed cat db base pk result f.refTable r'

/-- The rows that a call of `ExtendedSubset` may give: rows connected to rows of the base table. -/
inductive Connected (cat : Cat) (db : Db) (base : TableID) (pk : List Str) (result : Row → Prop) :
    TableID → Row → Prop
  | base (r q : Row) : db base r → result q → SameKey pk q r → Connected cat db base pk result base r
  | ref (f : Fkey) (r r' : Row) : Connected cat db base pk result f.table r → f ∈ cat.fkeys →
      db f.refTable r' → Refers f r r' → Connected cat db base pk result f.refTable r'
  | back (f : Fkey) (r r' : Row) : Connected cat db base pk result f.refTable r' → f ∈ cat.fkeys →
      db f.table r → Refers f r r' → Connected cat db base pk result f.table r

/-- The tables to which foreign keys lead from a table. -/
inductive Reach (cat : Cat) (base : TableID) : TableID → Prop
  | base : Reach cat base base
  | ref (f : Fkey) : f ∈ cat.fkeys → Reach cat base f.table → Reach cat base f.refTable

/-- What every catalog read from a database fulfils: names of tables are unique, a foreign key belongs
to the table it is listed in and has as many columns as it refers to. -/
structure Cat.Ok (cat : Cat) : Prop where
  nodup : (cat.tables.map Table.id).Nodup
  owner : ∀ t ∈ cat.tables, ∀ f ∈ t.fkeys, f.table = t.id
  columns : ∀ f ∈ cat.fkeys, f.columns.length = f.refColumns.length

/-- No foreign key refers to a table outside of the catalog. -/
def Cat.Closed (cat : Cat) : Prop := ∀ f ∈ cat.fkeys, ∃ t ∈ cat.tables, t.id = f.refTable

/-- The primary key `pk` of a table: no NULLs, and no two rows with the same key. -/
structure IsKey (db : Db) (t : TableID) (pk : List Str) : Prop where
  notNull : ∀ r, db t r → ∀ c ∈ pk, r c ≠ none
  unique : ∀ r r', db t r → db t r' → SameKey pk r r' → r = r'

/-- No table is called like the result of a subset query. -/
structure NoClash (cat : Cat) (base : TableID) (n : Nat) : Prop where
  base : base ≠ resultName n
  table : ∀ f ∈ cat.fkeys, f.table ≠ resultName n
  refTable : ∀ f ∈ cat.fkeys, f.refTable ≠ resultName n

/-- The shape of foreign keys for which a dump is complete: no foreign key leads back to the base table,
and a table to which two foreign keys lead refers to no further tables. -/
structure Treelike (cat : Cat) (base : TableID) : Prop where
  notBase : ∀ f ∈ cat.fkeys, Reach cat base f.table → f.refTable ≠ base
  shared : ∀ f ∈ cat.fkeys, ∀ g ∈ cat.fkeys, Reach cat base f.table → Reach cat base g.table →
    f.refTable = g.refTable → f ≠ g → ∀ h ∈ cat.fkeys, h.table ≠ f.refTable

/-- Text of a query template: every opening brace is doubled. -/
inductive Text : Str → Prop
  | plain (a : Str) : '{' ∉ a → Text a
  | escaped (a s : Str) : '{' ∉ a → Text s → Text (a ++ '{' :: '{' :: s)

end SubsetSpec
