import Verif.Model.Load
import Verif.Spec.Files

/-!
# What loading a dump means
-/

namespace LoadSpec
open Go Sqddl.Load

/-- The entry with the given file name, at the top of the archive or in a directory that is named
like the archive. -/
def AtTop (archive file n : Str) : Prop := n = file ∨ n = archive ++ '/' :: file

/-- A CSV file at the top of the archive or in a directory that is named like the archive. -/
def TopCsv (archive n : Str) : Prop :=
  ∃ file, '/' ∉ file ∧ FileSpec.EndsWith file b!".csv" ∧ AtTop archive file n

/-- A part of a path that denotes a directory entry. -/
def RealPart (p : Str) : Prop := p ≠ [] ∧ p ≠ b!"." ∧ p ≠ b!".." ∧ '/' ∉ p

/-- A path whose parts all denote directory entries: no `./`, no `..`, no `//`. -/
def Tidy (n : Str) : Prop := ∃ parts, parts ≠ [] ∧ (∀ p ∈ parts, RealPart p) ∧ n = join b!"/" parts

/-- What a load may have run, in order: first the schema, then CSV files, then the indexes, then the
constraints.  Each part only after the parts before it ran completely and without error. -/
structure InOrder (ok : Job → Bool) (schema csvs indexes constraints : List Job)
    (trace : List Job) : Prop where
  parts : ∃ c i k, trace = schema ++ c ++ i ++ k ∧
    (∃ all, all.Perm csvs ∧ c <+: all) ∧ (i = [] ∨ i = indexes) ∧ (k = [] ∨ k = constraints) ∧
    (c ++ i ++ k ≠ [] → ∀ j ∈ schema, ok j) ∧
    (i ++ k ≠ [] → c.Perm csvs ∧ ∀ j ∈ c, ok j) ∧
    (k ≠ [] → i = indexes ∧ ∀ j ∈ i, ok j)

end LoadSpec
