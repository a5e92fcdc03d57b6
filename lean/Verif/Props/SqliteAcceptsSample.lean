import Verif.Props.SqliteAccepts

/-!
# SQLite accepts the statements of a migration: a sample (C71)
-/

namespace LiteSchema
open SqlSpec Sqddl LiteText CatalogSpec DdlSpec
open LiteSpec (fold)
open DdlText hiding Stmt readStmt runScript Rule ruleOf

instance (t : Table) : Decidable (Sound t) :=
  decidable_of_iff (CatalogSpec.liveColumns t ≠ [] ∧ (∀ c ∈ t.columns, c.ignore = false) ∧
      ((liveConstraints t).filter fun k =>
        decide (k.constraintType = b!"PRIMARY KEY")).length ≤ 1 ∧
      (∀ c ∈ liveColumns t, c.isUnique = true →
        ∃ k ∈ liveConstraints t, k.constraintType = b!"UNIQUE" ∧ k.columns = [c.columnName]) ∧
      (t.indexes.map fun x => fold x.indexName).Nodup ∧
      ∀ x ∈ t.indexes, ∀ n ∈ named (idxOfIndex x),
        ∃ c ∈ liveColumns t, fold c.columnName = fold n)
    ⟨fun ⟨a, b, c, d, e, f⟩ => ⟨a, b, c, d, e, f⟩, fun ⟨a, b, c, d, e, f⟩ => ⟨a, b, c, d, e, f⟩⟩

/-- The columns of a foreign key. -/
def foreignCols (k : Con) : List Str :=
  match k.kind with
  | .foreign cols _ => cols
  | _ => []

instance (s t : Table) (T : Shape) : Decidable (Passable s t T) :=
  decidable_of_iff ((∀ x ∈ liveColumns s, ∀ y ∈ liveColumns t, fold x.columnName = fold y.columnName →
        x.columnName = y.columnName) ∧
      (∃ x ∈ liveColumns s, hasColumn t x.columnName = true) ∧
      (∀ c ∈ s.columns, c.ignore = false) ∧
      ((∃ x ∈ liveColumns s, ∃ y ∈ liveColumns t, x.columnName = y.columnName ∧
          (x.columnType ≠ y.columnType ∨ x.isNotNull ≠ y.isNotNull)) ∨
        ∀ c ∈ liveColumns s, hasColumn t c.columnName = false → ∀ k ∈ T.cons,
          fold c.columnName ∉ (foreignCols k).map fold))
    ⟨fun ⟨a, b, c, d⟩ => ⟨a, b, c, d.imp_right fun h x hx hn k hk cols r e => by
        have := h x hx hn k hk
        unfold foreignCols at this
        rwa [e] at this⟩,
     fun ⟨a, b, c, d⟩ => ⟨a, b, c, d.imp_right fun h x hx hn k hk => by
        unfold foreignCols
        split
        · rename_i cols r e; exact h x hx hn k hk cols r e
        · simp⟩⟩

instance (s d : Schema) (k : Str) : Decidable (Dropped s d k) := by
  unfold Dropped; infer_instance

instance (d : Schema) : Decidable (NamesApart d) :=
  decidable_of_iff ((∀ t ∈ sqliteTables d, ∀ x ∈ t.indexes, ∀ t' ∈ sqliteTables d, ∀ y ∈ t'.indexes,
        fold x.indexName = fold y.indexName → fold t.tableName = fold t'.tableName) ∧
      ∀ t ∈ sqliteTables d, ∀ t' ∈ sqliteTables d,
        fold (t.tableName ++ b!"_new") ≠ fold t'.tableName)
    ⟨fun ⟨a, b⟩ => ⟨a, b⟩, fun ⟨a, b⟩ => ⟨a, b⟩⟩

end LiteSchema

namespace Sqddl.Sqlite
open SqlSpec CatalogSpec LiteText LiteSchema
open LiteSpec (fold)

/-- A database that has been created with the tables of a catalog is ready for a migration. -/
theorem created_ready {s d : Schema} (hi : ∀ t ∈ s.tables, Whole t)
    (hpass : ∀ p ∈ sqlitePairs s d, Passable p.1 p.2 (made (nameTable p.1)))
    (hnew : ∀ t ∈ sqliteTables d, ((s.tables.filter fun x => !x.ignore).find? fun x =>
      x.tableName == t.tableName) = none → ∀ x ∈ s.tables, fold x.tableName ≠ fold t.tableName)
    (htemp : ∀ t ∈ sqliteTables d, ∀ x ∈ s.tables,
      fold x.tableName ≠ fold (t.tableName ++ b!"_new"))
    (hidx : ∀ x ∈ s.tables, ∀ z ∈ x.indexes, ∀ t ∈ sqliteTables d, ∀ y ∈ t.indexes,
      fold y.indexName = fold z.indexName →
      fold x.tableName = fold t.tableName ∨ Dropped s d (fold x.tableName))
    {fk : Bool} {db : Sch}
    (h : run fk blank ((s.tables.map nameTable).flatMap createOf) = some db) : Ready s d db := by
  have hold := created_holds hi h
  obtain ⟨-, h2, h3, -⟩ := creates_view (R := fun _ => False) (fun _ _ _ _ _ h => h.elim)
    (fun _ _ _ _ h => h.elim) (fun t ht x hx => by
      obtain ⟨y, hy, rfl⟩ := List.mem_map.1 ht
      exact ((whole_name (hi y hy)).indexes x hx).2) h
  have hmade : ∀ t ∈ s.tables, ∃ f, view db (fold t.tableName) = some (made (nameTable t), f) ∧
      ∀ n x, f n = some x ↔ ∃ y ∈ t.indexes, fold y.indexName = n ∧ idxOfIndex y = x := by
    intro t ht
    obtain ⟨-, -, f, k3, k4⟩ := h3 _ (List.mem_map.2 ⟨t, ht, rfl⟩)
    rw [(nameTable_fields t).1] at k3
    rw [(nameTable_fields t).2.2.2.1] at k4
    exact ⟨f, k3, k4⟩
  have hother : ∀ k, (∀ x ∈ s.tables, fold x.tableName ≠ k) → db.table k = none := by
    intro k hk
    rw [← view_none, h2 k fun z hz => by
      obtain ⟨x, hx, rfl⟩ := List.mem_map.1 hz
      rw [(nameTable_fields x).1]
      exact hk x hx]
    exact view_none.2 rfl
  refine ⟨fun p hp => hold p.1 (List.mem_filter.1 (mem_pairs hp).1).1, fun p hp T hT => ?_, ?_,
    fun t ht e => Or.inl (hother _ (hnew t ht e)), fun t ht => hother _ (htemp t ht),
    run_closed (fun _ _ _ h => by cases h) h, fun n k x hx t ht y hy hyn => ?_⟩
  · obtain ⟨f, e, -⟩ := hmade p.1 (List.mem_filter.1 (mem_pairs hp).1).1
    rw [(view_some.1 e).1] at hT
    cases hT
    exact hpass p hp
  · rintro k ⟨x, hx, -, rfl⟩
    obtain ⟨f, e, -⟩ := hmade x (List.mem_filter.1 hx).1
    rw [(view_some.1 e).1]
    simp
  · have hcl := run_closed (fun _ _ _ h => by cases h) h n k x hx
    by_cases hk : ∃ z ∈ s.tables, fold z.tableName = k
    · obtain ⟨z, hz, rfl⟩ := hk
      obtain ⟨f, e1, e2⟩ := hmade z hz
      rw [← on_some, (view_some.1 e1).2] at hx
      obtain ⟨w, hw, e3, -⟩ := (e2 n x).1 hx
      exact hidx z hz w hw t ht y hy (by rw [hyn, e3])
    · rw [hother k fun z hz e => hk ⟨z, hz, e⟩] at hcl
      cases hcl

end Sqddl.Sqlite

namespace Sqddl.Sqlite.Samples
open SqlSpec Sqddl LiteText CatalogSpec
open LiteSpec (fold References Clear)
open LiteSchema hiding Rule ruleOf

theorem sound_d6 : ∀ t ∈ sqliteTables d6, Sound t := by decide +kernel
theorem apart_d6 : NamesApart d6 := by decide +kernel

theorem passable6 : ∀ p ∈ sqlitePairs s6 d6, Passable p.1 p.2 (made (nameTable p.1)) := by
  decide +kernel

theorem ready6 {db : Sch} (h : made6 = some db) : Ready s6 d6 db :=
  created_ready whole_s6 passable6 (by decide +kernel) (by decide +kernel) (by decide +kernel) h

/-- `sqlite_migrates_partial` on the sample: columns are dropped and added in place, a table is rebuilt,
one is dropped and one is created, and SQLite accepts every statement. -/
example : ∃ files sts db, migration b!"01" (cat s6) (cat d6) true = some files ∧
    LiteText.runScript (keywords .sqlite) [] (files.flatMap (·.2)) = some sts ∧
    made6 = some db ∧ Accepted true db sts ∧ sts.length = 13 := by
  have hm : (migration b!"01" (cat s6) (cat d6) true).isSome = true := by decide +kernel
  obtain ⟨files, hm⟩ := Option.isSome_iff_exists.1 hm
  obtain ⟨db, hdb⟩ := Option.isSome_iff_exists.1 made6_some
  have hcopy : hasCopy ((sqliteEvents (cat s6) (cat d6) true).filterMap Ev.alter?) = some true := by
    decide +kernel
  obtain ⟨copy, h1, h2⟩ := migration_plan s6_ok d6_ok true clear6 b!"01" files hm
  rw [hcopy] at h1
  cases h1
  obtain ⟨sts, e, h⟩ := sqlite_migrates_partial s6_ok d6_ok clear6
    (fun p hp => whole_s6 _ (List.mem_filter.1 (mem_pairs hp).1).1) whole_d6 sound_d6 comparable6
    apart_d6 b!"01" files hm
  rw [h2] at e
  cases e
  have hfree := created_free (R := fun n => ∃ t ∈ sqliteTables d6, n = fold (t.tableName ++ b!"_new"))
    whole_s6 (by
      rintro t ht n ⟨x, hx, rfl⟩
      exact (by decide +kernel : ∀ t ∈ s6.tables, ∀ x ∈ sqliteTables d6,
        ¬ References t (fold (x.tableName ++ b!"_new"))) t ht x hx) hdb
  obtain ⟨k1, -⟩ := h true db (ready6 hdb)
    (fun _ t ht => ⟨fun u U hu => hfree u U hu _ ⟨t, ht, rfl⟩,
      (by decide +kernel : ∀ t ∈ sqliteTables d6, ∀ x ∈ sqliteTables d6,
        ¬ References x (fold (t.tableName ++ b!"_new"))) t ht⟩)
  exact ⟨files, sts6, db, hm, h2, hdb, k1, by decide +kernel⟩

end Sqddl.Sqlite.Samples
