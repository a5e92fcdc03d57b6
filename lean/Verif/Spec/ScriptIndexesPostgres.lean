import Verif.Model.ScriptIndexesPostgres

/-!
# The indexes and exclusion constraints of Postgres as its catalog describes them
-/

namespace Sqddl.Scripts.IndexSpec

/-- the names of operators or operator classes, one for each number -/
def NamedBy (l : List PgNamed) : List Nat → List Str → Prop
  | [], [] => True
  | n :: ns, s :: ss => (∃ p ∈ l, p.oid = n ∧ p.name = s) ∧ NamedBy l ns ss
  | _, _ => False

/-- the definitions of the first columns of an index -/
def defs (c : PgCatalog) (index n : Nat) : List Str := (List.range n).map fun k => c.indexdef index (k + 1)

/-- What Postgres guarantees for its catalog: numbers and names are unique, an index is in the schema of
its table and has a column, every key column has an operator class, and an exclusion constraint has an
operator for every key column of its index. -/
structure PgCatalogValid (c : PgCatalog) : Prop where
  schemaIds : (c.namespaces.map (·.oid)).Nodup
  schemaNames : (c.namespaces.map (·.nspname)).Nodup
  relIds : (c.rels.map (·.oid)).Nodup
  relNames : (c.rels.map (fun t => (t.relnamespace, t.relname))).Nodup
  amIds : (c.ams.map (·.oid)).Nodup
  opclassIds : (c.opclasses.map (·.oid)).Nodup
  operatorIds : (c.operators.map (·.oid)).Nodup
  columnIds : (c.attributes.map (fun a => (a.attrelid, a.attnum))).Nodup
  indexIds : (c.indexes.map (·.indexrelid)).Nodup
  conNames : (c.cons.map (fun k => (k.conrelid, k.conname))).Nodup
  indexSchema : ∀ x ∈ c.indexes, ∀ i ∈ c.rels, ∀ t ∈ c.rels, i.oid = x.indexrelid → t.oid = x.indrelid →
    i.relnamespace = t.relnamespace
  indexCols : ∀ x ∈ c.indexes, x.indkey ≠ [] ∧ x.indclass.length = x.indnkeyatts ∧
    x.indnkeyatts ≤ x.indkey.length ∧ ∃ names, NamedBy c.opclasses x.indclass names
  exclusions : ∀ k ∈ c.cons, k.contype = 'x' → ∀ x ∈ c.indexes, x.indexrelid = k.conindid →
    k.conexclop ≠ [] ∧ k.conexclop.length = x.indnkeyatts ∧ ∃ names, NamedBy c.operators k.conexclop names

/-- the condition of an index -/
def condition (c : PgCatalog) (x : PgIndexRow) : Str :=
  match x.indpred with
  | some p => c.expr p x.indrelid
  | none => []

/-- constraints have the names of their indexes, and no constraint has the name of another index -/
def ConsApart (c : PgCatalog) : Prop :=
  ∀ x ∈ c.indexes, ∀ i ∈ c.rels, i.oid = x.indexrelid → ∀ k ∈ c.cons, k.conname = i.relname ↔ k.made = some x.indexrelid

end Sqddl.Scripts.IndexSpec
