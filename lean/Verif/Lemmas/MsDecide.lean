import Verif.Props.MsPlan
import Verif.Lemmas.DdlDecide

/-!
# Deciding what can be expressed for SQL Server, for the samples
-/

namespace Sqddl.Sqlserver
open Go SqlSpec DdlText CatalogSpec MsText

instance (s n : Str) : Decidable (NameText s n) := by unfold NameText; infer_instance

instance (t : Column) : Decidable (ColumnText t) :=
  decidable_of_iff (PlainName .sqlserver t.columnName ∧ Fragment .sqlserver t.columnType ∧
      flat 0 (toks .sqlserver t.columnType) = true ∧
      quiet [b!"COLLATE", b!"NOT", b!"NULL"] 0 (toks .sqlserver t.columnType) = true ∧
      toks .sqlserver t.columnType ≠ [] ∧ t.collationName.all wordChar = true ∧
      (normalizeColumnDefault .sqlserver t.columnDefault ≠ [] →
        Fragment .sqlserver (normalizeColumnDefault .sqlserver t.columnDefault) ∧
        flat 0 (toks .sqlserver (normalizeColumnDefault .sqlserver t.columnDefault)) = true ∧
        quiet [b!"FOR"] 0 (toks .sqlserver (normalizeColumnDefault .sqlserver t.columnDefault)) = true ∧
        toks .sqlserver (normalizeColumnDefault .sqlserver t.columnDefault) ≠ []))
    ⟨fun ⟨a1, a2, a3, a4, a5, a6, a7⟩ => ⟨a1, a2, a3, a4, a5, a6, a7⟩,
     fun ⟨a1, a2, a3, a4, a5, a6, a7⟩ => ⟨a1, a2, a3, a4, a5, a6, a7⟩⟩

instance (e : Env) (a : Table) (t : Column) : Decidable (QuoteText e a t) :=
  decidable_of_iff (¬ HasInnerPair '\'' (alterSchema e a) ∧ ¬ HasInnerPair '\'' a.tableName ∧
      ¬ HasInnerPair '\'' t.columnName ∧
      ¬ HasInnerPair '\'' (tableSql e (alterSchema e a) a.tableName))
    ⟨fun ⟨a1, a2, a3, a4⟩ => ⟨a1, a2, a3, a4⟩, fun ⟨a1, a2, a3, a4⟩ => ⟨a1, a2, a3, a4⟩⟩

instance (e : Env) (a : AlterTable) : Decidable (AlterText e a) :=
  decidable_of_iff (PlainName .sqlserver (alterSchema e a.destTable) ∧
      PlainName .sqlserver a.destTable.tableName ∧
      (∀ x ∈ a.dropIndexes, NameText x.tableSchema x.tableName ∧ PlainName .sqlserver x.indexName) ∧
      (∀ c ∈ a.dropConstraints, PlainName .sqlserver c.constraintName) ∧
      (∀ c ∈ a.dropColumns, PlainName .sqlserver c.columnName) ∧
      (∀ c ∈ a.addColumns, ColumnOk .sqlserver e.coll false c) ∧
      (∀ p ∈ a.alterColumns, ColumnText p.2 ∧
        (normalizeColumnDefault .sqlserver p.1.columnDefault ≠ [] → QuoteText e a.destTable p.2)) ∧
      (∀ x ∈ a.createIndexes, x.sql = [] ∧ IndexOk .sqlserver false x) ∧
      ∀ c ∈ a.addConstraints, ConstraintOk .sqlserver e.cur c)
    ⟨fun ⟨a1, a2, a3, a4, a5, a6, a7, a8, a9⟩ => ⟨a1, a2, a3, a4, a5, a6, a7, a8, a9⟩,
     fun ⟨a1, a2, a3, a4, a5, a6, a7, a8, a9⟩ => ⟨a1, a2, a3, a4, a5, a6, a7, a8, a9⟩⟩

instance (s : Schema) : Decidable (DropText s) :=
  decidable_of_iff (PlainName .sqlserver s.schemaName ∧
      (∀ v ∈ s.views, PlainName .sqlserver v.viewName) ∧
      (∀ t ∈ s.tables, PlainName .sqlserver t.tableName) ∧
      ∀ r ∈ s.routines, PlainName .sqlserver r.routineName)
    ⟨fun ⟨a1, a2, a3, a4⟩ => ⟨a1, a2, a3, a4⟩, fun ⟨a1, a2, a3, a4⟩ => ⟨a1, a2, a3, a4⟩⟩

instance (n : Str) : Decidable (SchemaText n) :=
  decidable_of_iff (PlainName .sqlserver n ∧ ¬ HasInnerPair '\'' n ∧
      ¬ HasInnerPair '\'' (quoteIdentifier .sqlserver n))
    ⟨fun ⟨a1, a2, a3⟩ => ⟨a1, a2, a3⟩, fun ⟨a1, a2, a3⟩ => ⟨a1, a2, a3⟩⟩

instance (e : Env) (c : Constraint) : Decidable (FkeyText e c) := by unfold FkeyText; infer_instance

instance (e : Env) (evs : List Ev) (fk : MssqlFkeys) : Decidable (PlanText e evs fk) :=
  decidable_of_iff ((∀ g ∈ fk.dropFkeys.groups, ∀ c ∈ g, NameText c.tableSchema c.tableName ∧
        PlainName .sqlserver c.constraintName) ∧
      (∀ s ∈ evs.filterMap Ev.dropSchema?, DropText s) ∧
      (∀ s ∈ evs.filterMap Ev.createSchema?, SchemaText s) ∧
      (∀ t ∈ evs.filterMap Ev.dropTable?, NameText t.tableSchema t.tableName) ∧
      (∀ t ∈ evs.filterMap Ev.createTable?, TableText .sqlserver e.cur e.coll t ∧
        ∀ x ∈ t.indexes, x.sql = [] ∧ IndexOk .sqlserver false x) ∧
      (∀ a ∈ evs.filterMap Ev.alter?, AlterText e a) ∧
      (∀ g ∈ fk.addFastFkeys.groups, ∀ c ∈ g, FkeyText e c) ∧
      ∀ g ∈ fk.addFkeys.groups, ∀ c ∈ g, FkeyText e c)
    ⟨fun ⟨a1, a2, a3, a4, a5, a6, a7, a8⟩ => ⟨a1, a2, a3, a4, a5, a6, a7, a8⟩,
     fun ⟨a1, a2, a3, a4, a5, a6, a7, a8⟩ => ⟨a1, a2, a3, a4, a5, a6, a7, a8⟩⟩

end Sqddl.Sqlserver
