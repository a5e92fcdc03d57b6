import Verif.Model.Subset
import Verif.Model.SubsetQuery
import Verif.Model.Wipe

/-!
# The query of a subset dump: /repo/ddl/subsetter.go:434-587, 644-697

The joins of `Verif/Model/Subset.lean` and the results of `Verif/Model/SubsetQuery.lean` are written
into one query for each table.
-/

namespace Sqddl.Subset
open Go Wipe

/-- /repo/ddl/subsetter.go:451-454, 656-659, 675-678: a table -/
def tableText (d : Dialect) (t : TableID) : Str := qualified d [] t.1 t.2

/-- /repo/ddl/subsetter.go:477, 566, 574, 582, 685-692: a column of a table -/
def columnText (d : Dialect) (t : TableID) (c : Str) : Str := tableText d t ++ b!"." ++ quoteIdentifier d c

/-- /repo/ddl/subsetter.go:680-692: one equation -/
def equationText (d : Dialect) (s : Step) (p : Str × Str) : Str :=
  columnText d s.table p.1 ++ b!" = " ++ columnText d s.other p.2

/-- /repo/ddl/subsetter.go:674-693: one `JOIN` -/
def stepText (d : Dialect) (s : Step) : Str :=
  b!"\n    JOIN " ++ tableText d s.table ++ b!" ON " ++ join b!" AND " (s.on.map (equationText d s))

/-- /repo/ddl/subsetter.go:651-696 `toSQL`; `none` is a panic. -/
def joinText (d : Dialect) (j : Join) : Option Str :=
  (toSteps j).map fun q => tableText d q.1 ++ q.2.flatMap (stepText d)

/-- /repo/ddl/subsetter.go:546-554: the keys that a join selects; `keys` are the quoted columns of the
primary key of the table. -/
def unionText (d : Dialect) (keys : Str) (js : List Join) : Option Str :=
  (js.mapM (joinText d)).map fun ts =>
    b!"\n    " ++ join b!"\n    UNION\n    " (ts.map fun t => b!"SELECT DISTINCT " ++ keys ++ b!"\n    FROM " ++ t)

/-- /repo/ddl/subsetter.go:31-36: the result of a subset query -/
structure Result where
  columns : List Str
  records : List (List Str)
deriving DecidableEq, Repr

/-- /repo/ddl/subsetter.go:18-29, as far as it changes -/
structure Subsetter where
  results : List Result := []
  tableResults : TableID → List Nat := fun _ => []
  tableJoins : TableID → List Join := fun _ => []

/-- /repo/ddl/subsetter.go:304, 434-437: a result and its joins are added. -/
def Subsetter.add (ss : Subsetter) (r : Result) (joins : Joins) : Subsetter where
  results := ss.results ++ [r]
  tableResults := fun t => if t ∈ joins.keys then ss.tableResults t ++ [ss.results.length] else ss.tableResults t
  tableJoins := fun t => if t ∈ joins.keys then ss.tableJoins t ++ joins.get t else ss.tableJoins t

/-- A call of `Subset` or `ExtendedSubset` after its query: the base table, its primary key, and the
literals of the rows. -/
structure Request where
  extended : Bool
  base : Table
  pkey : List Str
  records : List (List Str)
deriving DecidableEq, Repr

/-- /repo/ddl/subsetter.go:303-438; `none` is a panic. -/
def Subsetter.subset (cat : Cat) (ss : Subsetter) (q : Request) : Option Subsetter :=
  match (if q.extended then extendedSubset else plainSubset) cat (ss.results.length + 1) q.base q.pkey with
  | .done st => some (ss.add ⟨q.pkey, q.records⟩ st.joins)
  | _ => none

/-- /repo/ddl/dump_cmd.go:232-243: all subset queries. -/
def Subsetter.run (cat : Cat) (qs : List Request) : Option Subsetter := qs.foldlM (Subsetter.subset cat) {}

/-- /repo/ddl/subsetter.go:485-538: the results; `none` is an index out of range. -/
def Subsetter.resultsText (d : Dialect) (ss : Subsetter) (t : TableID) : Option Str :=
  ((ss.tableResults t).mapM fun n => (ss.results[n]?).map fun r =>
    SubsetQuery.resultText d n (join b!", " (r.columns.map (quoteIdentifier d))) r.records).map (join b!",")

/-- /repo/ddl/subsetter.go:451-587 for a table with the primary key `pk` and the columns `cols` that are
not generated.  `none` is a panic, `some []` is no query. -/
def Subsetter.query (d : Dialect) (ss : Subsetter) (t : TableID) (pk cols : List Str) : Option Str :=
  if ss.tableResults t = [] then some [] else
  (ss.resultsText d t).bind fun results =>
  (if ss.tableJoins t = [] then some [] else unionText d (join b!", " (pk.map (columnText d t))) (ss.tableJoins t)).map
    fun union =>
    b!"WITH " ++ results ++ b!",pkey_ (" ++ join b!", " (pk.map (quoteIdentifier d)) ++ b!") AS (" ++ union ++
    b!"\n)\nSELECT " ++ join b!"\n    ," (cols.map (columnText d t)) ++
    b!"\nFROM " ++ tableText d t ++ b!"\nJOIN pkey_ ON " ++
    join b!" AND " (pk.map fun c => b!"pkey_." ++ quoteIdentifier d c ++ b!" = " ++ columnText d t c) ++
    (if pk = [] then [] else b!"\nORDER BY " ++ join b!", " (pk.map (columnText d t))) ++ b!"\n;"

end Sqddl.Subset
