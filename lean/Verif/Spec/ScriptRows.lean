import Verif.Basic

/-!
# Which objects of a database belong to the database itself

From the manuals: Postgres reserves the schemas that begin with `pg_`, SQLite the names that begin
with `sqlite_`, MySQL has four databases of its own.
-/

namespace OwnSpec

/-- the schemas of Postgres itself -/
def PgOwn (schema : Str) : Prop := schema = b!"information_schema" ∨ b!"pg_" <+: schema

/-- the databases of MySQL itself -/
def MyOwn (schema : Str) : Prop :=
  schema = b!"mysql" ∨ schema = b!"information_schema" ∨ schema = b!"performance_schema" ∨ schema = b!"sys"

/-- the names of SQLite itself -/
def LiteOwn (name : Str) : Prop := b!"sqlite_" <+: name.map Go.lowerC

/-- What a list of names to include and a list of names to exclude ask for: an empty list of names to
include means all. -/
def Wanted (incl excl : List Str) (x : Str) : Prop := (incl = [] ∨ x ∈ incl) ∧ x ∉ excl

/-- The number of the catalog table pg_class, which comments on tables refer to. -/
def pgClassOid : Nat := 1259

end OwnSpec
