import Verif.Model.ScriptOrder

/-!
# The order of the rows of a query
-/

namespace Sqddl.Scripts.OrderSpec

/-- `ORDER BY a, b, …`: the first of the texts that differ decides. -/
def keyLe (le : Str → Str → Prop) : List Str → List Str → Prop
  | [], _ => True
  | _ :: _, [] => False
  | a :: as, b :: bs => le a b ∧ (le b a → keyLe le as bs)

/-- `ans` is an answer to a query with the rows `rows`, sorted by `key`: a database may give rows that
compare as equal in any order. -/
def Answers {R : Type} (le : Str → Str → Prop) (key : R → List Str) (rows ans : List R) : Prop :=
  ans.Perm rows ∧ ans.Pairwise fun a b => keyLe le (key a) (key b)

/-- The database tells the names apart by which it sorts. -/
def Apart {R : Type} (le : Str → Str → Prop) (key : R → List Str) (rows : List R) : Prop :=
  ∀ x ∈ rows, ∀ y ∈ rows, ∀ a ∈ key x, ∀ b ∈ key y, le a b → le b a → a = b

/-- The same MySQL database, with its rows stored in another order. -/
structure SameMy (c d : MyTables) : Prop where
  tables : c.tables.Perm d.tables

/-- The same Postgres database, with its rows stored in another order. -/
structure SamePg (c d : PgTables) : Prop where
  namespaces : c.namespaces.Perm d.namespaces
  classes : c.classes.Perm d.classes
  descriptions : c.descriptions.Perm d.descriptions

/-- The same SQLite database, with its rows stored in another order. -/
structure SameLite (c d : LiteTables) : Prop where
  rows : c.rows.Perm d.rows
  tableList : c.tableList.Perm d.tableList

/-- The same routines, with their rows stored in another order. -/
structure SameRoutines (c d : PgRoutines) : Prop where
  namespaces : c.namespaces.Perm d.namespaces
  procs : c.procs.Perm d.procs
  descriptions : c.descriptions.Perm d.descriptions
  extensions : c.extensions.Perm d.extensions
  depends : c.depends.Perm d.depends
  arguments : c.arguments = d.arguments
  functiondef : c.functiondef = d.functiondef
  result : c.result = d.result

/-- The same triggers, with their rows stored in another order. -/
structure SameTriggers (c d : PgObjects) : Prop where
  namespaces : c.namespaces.Perm d.namespaces
  classes : c.classes.Perm d.classes
  triggers : c.triggers.Perm d.triggers
  descriptions : c.descriptions.Perm d.descriptions
  triggerdef : c.triggerdef = d.triggerdef

end Sqddl.Scripts.OrderSpec
