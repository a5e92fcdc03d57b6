import Verif.Props.ScriptIndexesPostgres
import Verif.Props.ScriptRowsSample

/-!
# C110, C111: a catalog of Postgres, and included columns that are lost
-/

namespace Sqddl.Scripts
open OwnSpec IndexSpec

/-- A table with an index of an expression and a column that includes another column, the index of its
primary key, the index of an exclusion constraint with a condition, and a check. -/
def pgCatalogSample : PgCatalog where
  namespaces := [⟨1, b!"app"⟩, ⟨2, b!"pg_catalog"⟩]
  rels := [⟨10, 1, b!"bookings", 'r', 0⟩, ⟨20, 1, b!"bookings_idx", 'i', 403⟩, ⟨21, 1, b!"bookings_pkey", 'i', 403⟩,
    ⟨22, 1, b!"bookings_excl", 'i', 783⟩]
  ams := [⟨403, b!"btree"⟩, ⟨783, b!"gist"⟩]
  opclasses := [⟨50, b!"text_ops"⟩, ⟨51, b!"int4_ops"⟩, ⟨52, b!"range_ops"⟩]
  operators := [⟨60, b!"="⟩, ⟨61, b!"&&"⟩]
  attributes := [⟨10, 1, b!"id"⟩, ⟨10, 2, b!"room"⟩, ⟨10, 3, b!"during"⟩, ⟨20, 1, b!"lower"⟩]
  indexes := [⟨20, 10, false, 2, [0, 2, 1], [50, 51], none⟩, ⟨21, 10, true, 1, [1], [51], none⟩,
    ⟨22, 10, false, 2, [2, 3], [51, 52], some b!"tree"⟩]
  cons := [⟨70, b!"bookings_pkey", 10, 21, 'p', [], false, false, true, some 21⟩,
    ⟨71, b!"bookings_excl", 10, 22, 'x', [60, 61], true, false, true, some 22⟩,
    ⟨72, b!"bookings_check", 10, 0, 'c', [], false, false, false, none⟩]
  indexdef := fun i k =>
    if i = 20 then (if k = 0 then b!"CREATE INDEX ..." else if k = 1 then b!"lower(name)" else if k = 2 then b!"room" else b!"id")
    else if i = 22 then (if k = 1 then b!"room" else b!"during") else b!"id"
  expr := fun _ _ => b!"NOT cancelled"
  constraintdef := fun _ => b!"CHECK (id > 0) NOT VALID"

theorem pgCatalogSample_valid : PgCatalogValid pgCatalogSample where
  schemaIds := by decide
  schemaNames := by decide
  relIds := by decide
  relNames := by decide
  amIds := by decide
  opclassIds := by decide
  operatorIds := by decide
  columnIds := by decide
  indexIds := by decide
  conNames := by decide
  indexSchema := by decide
  indexCols := by
    intro x hx
    simp only [pgCatalogSample, List.mem_cons, List.not_mem_nil, or_false] at hx
    rcases hx with rfl | rfl | rfl
    · exact ⟨by decide, rfl, by decide, [b!"text_ops", b!"int4_ops"], ⟨⟨50, _⟩, List.mem_cons_self .., rfl, rfl⟩,
        ⟨⟨51, _⟩, .tail _ (.head _), rfl, rfl⟩, trivial⟩
    · exact ⟨by decide, rfl, by decide, [b!"int4_ops"], ⟨⟨51, _⟩, .tail _ (.head _), rfl, rfl⟩, trivial⟩
    · exact ⟨by decide, rfl, by decide, [b!"int4_ops", b!"range_ops"], ⟨⟨51, _⟩, .tail _ (.head _), rfl, rfl⟩,
        ⟨⟨52, _⟩, .tail _ (.tail _ (.head _)), rfl, rfl⟩, trivial⟩
  exclusions := by
    intro k hk hx x hxm e
    simp only [pgCatalogSample, List.mem_cons, List.not_mem_nil, or_false] at hk hxm
    rcases hk with rfl | rfl | rfl
    · exact absurd hx (by decide)
    · rcases hxm with rfl | rfl | rfl
      · cases e
      · cases e
      · exact ⟨by decide, rfl, [b!"=", b!"&&"], ⟨⟨60, _⟩, .head _, rfl, rfl⟩, ⟨⟨61, _⟩, .tail _ (.head _), rfl, rfl⟩,
          trivial⟩
    · exact absurd hx (by decide)

theorem pgCatalogSample_plain : PlainSchemas pgCatalogSample := by
  intro n hn
  simp only [pgCatalogSample, List.mem_cons, List.not_mem_nil, or_false] at hn
  rcases hn with rfl | rfl
  · intro h; revert h; decide
  · exact fun _ => .inr ⟨b!"catalog", rfl⟩

theorem pgCatalogSample_apart : ConsApart pgCatalogSample := by
  intro x hx i hi e k hk
  simp only [pgCatalogSample, List.mem_cons, List.not_mem_nil, or_false] at hx hi hk
  rcases hx with rfl | rfl | rfl <;> rcases hi with rfl | rfl | rfl | rfl <;> cases e <;>
    rcases hk with rfl | rfl | rfl <;> decide

example : pgIndexCols {} pgCatalogSample = [some ⟨b!"app", b!"bookings", b!"bookings_idx", b!"btree", false, false,
    [b!"lower(name)", b!"room"], [b!"id"], [b!"text_ops", b!"int4_ops", []], [], b!"CREATE INDEX ...;"⟩] := by
  decide +kernel

example := ((pg_index_columns_partial (f := {}) oneOf_none oneOf_none pgCatalogSample_valid pgCatalogSample_plain
  pgCatalogSample_apart).1 (some ⟨b!"app", b!"bookings", b!"bookings_idx", b!"btree", false, false,
    [b!"lower(name)", b!"room"], [b!"id"], [b!"text_ops", b!"int4_ops", []], [], b!"CREATE INDEX ...;"⟩)).mp
    (by decide +kernel)

example := ((pg_exclusions_partial (f := {}) oneOf_none oneOf_none pgCatalogSample_valid pgCatalogSample_plain).1
  (⟨b!"app", b!"bookings", b!"bookings_excl", b!"gist", true, false, 10, some b!"tree"⟩,
    [b!"room", b!"during"], [b!"=", b!"&&"], b!"NOT cancelled")).mp (by decide +kernel)

example := ((pg_checks_partial (f := {}) oneOf_none oneOf_none pgCatalogSample_valid pgCatalogSample_plain).1
  (b!"app", b!"bookings", b!"bookings_check", b!"CHECK (id > 0) NOT VALID", false, false, true)).mp
  (by decide +kernel)

/-- the same catalog, but the index of the exclusion constraint includes a column -/
def pgIncludeSample : PgCatalog :=
  { pgCatalogSample with
    indexes := [⟨20, 10, false, 2, [0, 2, 1], [50, 51], none⟩, ⟨21, 10, true, 1, [1], [51], none⟩,
      ⟨22, 10, false, 2, [2, 3, 1], [51, 52], some b!"tree"⟩] }

/-- An exclusion constraint with an INCLUDE clause is reported as one without: its included columns are
lost, so that two different tables give the same report. -/
theorem pg_include_refuted : ∃ c c' : PgCatalog, c.cons = c'.cons ∧ c.rels = c'.rels ∧
    (∃ x ∈ c.indexes, ∃ x' ∈ c'.indexes, x.indexrelid = 22 ∧ x'.indexrelid = 22 ∧
      defs c 22 x.indkey.length ≠ defs c' 22 x'.indkey.length) ∧
    pgExclusions {} c = pgExclusions {} c' ∧ pgIndexCols {} c = pgIndexCols {} c' ∧ pgExclusions {} c ≠ [] :=
  ⟨pgCatalogSample, pgIncludeSample, rfl, rfl, ⟨_, .tail _ (.tail _ (.head _)), _, .tail _ (.tail _ (.head _)), rfl, rfl,
    by decide⟩, by decide +kernel, by decide +kernel, by decide +kernel⟩

end Sqddl.Scripts
