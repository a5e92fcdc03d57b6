import Verif.Spec.Catalog
import Verif.Model.Diff

/-!
# Two small catalogs

Used in the examples that stand beside the theorems about generated migrations.
-/

namespace Sqddl.Sample
open CatalogSpec Go

def col (t n ty : Str) : Column := { tableName := t, columnName := n, columnType := ty }
def pk (t n : Str) (cols : List Str) : Constraint :=
  { tableName := t, constraintName := n, constraintType := PRIMARY_KEY, columns := cols }
def fk (t n : Str) (cols : List Str) (rt : Str) (rcols : List Str) : Constraint :=
  { tableName := t, constraintName := n, constraintType := FOREIGN_KEY, columns := cols,
    referencesTable := rt, referencesColumns := rcols }
def idx (t n : Str) (cols : List Str) : Index :=
  { tableName := t, indexName := n, columns := cols }

/-- tables `actor` (with an ignored column), `film` and `old`, and a schema `gone` -/
def src : Catalog :=
  { schemas := [
      { schemaName := [], tables := [
          { tableName := b!"actor"
            columns := [col b!"actor" b!"id" b!"INT", col b!"actor" b!"name" b!"VARCHAR(255)",
              { col b!"actor" b!"secret" b!"INT" with ignore := true },
              col b!"actor" b!"extra" b!"INT"]
            indexes := [idx b!"actor" b!"actor_name_idx" [b!"name"]]
            constraints := [pk b!"actor" b!"actor_pkey" [b!"id"]] },
          { tableName := b!"film"
            columns := [col b!"film" b!"id" b!"INT", col b!"film" b!"lead" b!"INT"]
            constraints := [pk b!"film" b!"film_pkey" [b!"id"],
              fk b!"film" b!"film_lead_fkey" [b!"lead"] b!"actor" [b!"id"]] },
          { tableName := b!"old", columns := [col b!"old" b!"id" b!"INT"] ,
            constraints := [fk b!"old" b!"old_id_fkey" [b!"id"] b!"film" [b!"id"]] }] },
      { schemaName := b!"gone", tables := [{ tableSchema := b!"gone", tableName := b!"t" }] }] }

/-- `actor` with another type for `name` and two more columns, `film` without its foreign key, a
new table `prize` that refers to `film`, an ignored table, and a schema `fresh` -/
def dest : Catalog :=
  { schemas := [
      { schemaName := [], tables := [
          { tableName := b!"actor"
            columns := [col b!"actor" b!"id" b!"INT", col b!"actor" b!"name" b!"TEXT",
              col b!"actor" b!"secret" b!"INT", col b!"actor" b!"born" b!"DATE"]
            indexes := [idx b!"actor" b!"actor_born_idx" [b!"born"]]
            constraints := [pk b!"actor" b!"actor_id_pkey" [b!"id", b!"born"]] },
          { tableName := b!"film"
            columns := [col b!"film" b!"id" b!"INT", col b!"film" b!"lead" b!"INT"]
            constraints := [pk b!"film" b!"film_pkey" [b!"id", b!"lead"],
              fk b!"film" b!"film_actor_fkey" [b!"lead"] b!"actor" [b!"id"]] },
          { tableName := b!"skip", ignore := true },
          { tableName := b!"prize", columns := [col b!"prize" b!"film_id" b!"INT"]
            constraints := [fk b!"prize" b!"prize_film_id_fkey" [b!"film_id"] b!"film" [b!"id"]] }] },
      { schemaName := b!"fresh", tables := [{ tableSchema := b!"fresh", tableName := b!"t" }] }] }

theorem src_ok : Ok src := by decide +kernel
theorem dest_ok : Ok dest := by decide +kernel

end Sqddl.Sample
