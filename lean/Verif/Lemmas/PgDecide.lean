import Verif.Props.PgFiles
import Verif.Lemmas.DdlDecide

/-!
# Deciding what can be expressed, for the samples
-/

namespace Sqddl.Postgres
open Go SqlSpec DdlText CatalogSpec PgText

instance (kw : List Str) (n : Str) : Decidable (SelfName kw n) :=
  decidable_of_iff (n ≠ [] ∧ n.all wordChar = true ∧ nameOf .postgres kw (.word n) = some n)
    ⟨fun ⟨a, b, c⟩ => ⟨a, b, c⟩, fun ⟨a, b, c⟩ => ⟨a, b, c⟩⟩

instance (s n : Str) : Decidable (NameText s n) := by unfold NameText; infer_instance

instance (t : Column) : Decidable (ColumnText t) :=
  decidable_of_iff (SelfName (keywords .postgres) t.columnName ∧ ClauseText .postgres t.columnType ∧
      ¬ HasInnerPair '"' t.collationName ∧
      (normalizeColumnDefault .postgres t.columnDefault ≠ [] →
        Fragment .postgres (normalizeColumnDefault .postgres t.columnDefault) ∧
        flat 0 (toks .postgres (normalizeColumnDefault .postgres t.columnDefault)) = true ∧
        toks .postgres (normalizeColumnDefault .postgres t.columnDefault) ≠ []) ∧
      (t.columnIdentity ≠ [] → Fragment .postgres t.columnIdentity ∧
        toks .postgres t.columnIdentity ∈ identities .postgres) ∧
      PlainName .postgres (checkName t))
    ⟨fun ⟨a1, a2, a3, a4, a5, a6⟩ => ⟨a1, a2, a3, a4, a5, a6⟩,
     fun ⟨a1, a2, a3, a4, a5, a6⟩ => ⟨a1, a2, a3, a4, a5, a6⟩⟩

instance (e : Env) (a : AlterTable) : Decidable (AlterText e a) :=
  decidable_of_iff (NameText a.destTable.tableSchema a.destTable.tableName ∧
      (∀ x ∈ a.dropIndexes, NameText x.tableSchema x.indexName) ∧
      (∀ c ∈ a.dropConstraints, PlainName .postgres c.constraintName) ∧
      (∀ c ∈ a.dropColumns, PlainName .postgres c.columnName) ∧
      (∀ c ∈ a.addColumns, ColumnOk .postgres e.coll false c) ∧
      (∀ p ∈ a.alterColumns, ColumnText p.2) ∧
      (∀ p ∈ a.alterConstraints, PlainName .postgres p.2.constraintName) ∧
      (∀ c ∈ a.validateNotNull, PlainName .postgres (checkName c) ∧ PlainName .postgres c.columnName) ∧
      (∀ x ∈ a.createIndexes, x.sql = [] ∧ IndexOk .postgres false x) ∧
      ∀ c ∈ a.addConstraints, PlainName .postgres c.constraintName ∧
        (c.constraintType = b!"PRIMARY KEY" ∨ c.constraintType = b!"UNIQUE") ∧
        IndexOk .postgres false (keyIndex c))
    ⟨fun ⟨a1, a2, a3, a4, a5, a6, a7, a8, a9, a10⟩ => ⟨a1, a2, a3, a4, a5, a6, a7, a8, a9, a10⟩,
     fun ⟨a1, a2, a3, a4, a5, a6, a7, a8, a9, a10⟩ => ⟨a1, a2, a3, a4, a5, a6, a7, a8, a9, a10⟩⟩

instance (e : Env) (evs : List Ev) : Decidable (PlanText e evs) :=
  decidable_of_iff ((∀ c ∈ evs.filterMap Ev.dropFkey?, NameText c.tableSchema c.tableName ∧
        PlainName .postgres c.constraintName) ∧
      (∀ s ∈ evs.filterMap Ev.dropSchema?, PlainName .postgres s.schemaName) ∧
      (∀ s ∈ evs.filterMap Ev.createSchema?, PlainName .postgres s) ∧
      (∀ t ∈ evs.filterMap Ev.dropTable?, NameText t.tableSchema t.tableName) ∧
      (∀ t ∈ evs.filterMap Ev.createTable?, TableText .postgres e.cur e.coll t ∧
        ∀ x ∈ t.indexes, x.sql = [] ∧ IndexOk .postgres false x) ∧
      (∀ a ∈ evs.filterMap Ev.alter?, AlterText e a) ∧
      (∀ c ∈ evs.filterMap Ev.addFastFkey?, NameText c.tableSchema c.tableName ∧
        ConstraintOk .postgres e.cur c) ∧
      ∀ c ∈ evs.filterMap Ev.addFkey?, NameText c.tableSchema c.tableName ∧
        PlainName .postgres c.constraintName ∧ ConstraintOk .postgres e.cur c)
    ⟨fun ⟨a1, a2, a3, a4, a5, a6, a7, a8⟩ => ⟨a1, a2, a3, a4, a5, a6, a7, a8⟩,
     fun ⟨a1, a2, a3, a4, a5, a6, a7, a8⟩ => ⟨a1, a2, a3, a4, a5, a6, a7, a8⟩⟩

end Sqddl.Postgres
