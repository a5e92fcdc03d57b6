import Verif.Model.Load

/-!
# What loading a dump should run

The jobs that a dump consists of, given the texts of its files.
-/

namespace DumpSpec
open Sqddl Sqddl.Load

/-- The texts of a dump: those of the three SQL files, unless there is only data, and the names and texts
of the CSV files. -/
structure Content where
  sql : Option (Str × Str × Str)
  csv : List (Str × Str)

/-- A file that is run, unless it is empty. -/
def runs (name text : Str) : List Job := if text = [] then [] else [.sql name text]

/-- The jobs are those of the content: schema.sql, the CSV files in any order, each once, indexes.sql,
constraints.sql. -/
def JobsOf (x : Content) (js : List Job) : Prop :=
  ∃ csvs, csvs.Perm (x.csv.map fun f => Job.csv f.1 f.2) ∧ js =
    (match x.sql with
    | some (s, i, k) => runs b!"schema.sql" s ++ csvs ++ runs b!"indexes.sql" i ++ runs b!"constraints.sql" k
    | none => csvs)

end DumpSpec
