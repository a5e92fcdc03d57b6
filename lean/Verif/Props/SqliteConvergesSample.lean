import Verif.Props.SqliteConverges
import Verif.Props.SqliteSample

/-!
# SQLite migrations lead to the schema of the destination: a sample (C71)
-/

namespace LiteSchema
open SqlSpec Sqddl LiteText CatalogSpec DdlSpec
open LiteSpec (fold)
open DdlText hiding Stmt readStmt runScript Rule ruleOf

instance (t : Table) : Decidable (Whole t) :=
  decidable_of_iff (((liveColumns t).map fun c => fold c.columnName).Nodup ∧
      (∀ c ∈ liveColumns t, (c.isPrimaryKey = true ↔
        ∃ k ∈ liveConstraints t, k.constraintType = b!"PRIMARY KEY" ∧ k.columns = [c.columnName])) ∧
      (∀ k ∈ liveConstraints t, k.constraintType = b!"PRIMARY KEY" →
        k.columns.length = 1 → k.isDeferrable = false) ∧
      (∀ c ∈ liveColumns t,
        (∀ r ∈ colRules { bare (colOf .sqlite [] true c) with
          ref := (colOf .sqlite [] true c).ref
          deferrable := (colOf .sqlite [] true c).deferrable
          initiallyDeferred := (colOf .sqlite [] true c).initiallyDeferred },
          ∃ k ∈ liveConstraints t, k.constraintType = b!"FOREIGN KEY" ∧
            k.columns = [c.columnName] ∧ ruleOf k = r) ∧
        ∀ k ∈ liveConstraints t, k.constraintType = b!"FOREIGN KEY" ∧
            k.columns = [c.columnName] → ruleOf k ∈ colRules { bare (colOf .sqlite [] true c) with
          ref := (colOf .sqlite [] true c).ref
          deferrable := (colOf .sqlite [] true c).deferrable
          initiallyDeferred := (colOf .sqlite [] true c).initiallyDeferred }) ∧
      (∀ k ∈ liveConstraints t, ∀ n ∈ k.columns, hasColumn t n = true) ∧
      ∀ x ∈ t.indexes, x.ignore = false ∧ x.tableSchema = [] ∧ x.tableName = t.tableName)
    ⟨fun ⟨a, b, c, d, e, f⟩ => ⟨a, b, c, fun x hx r => ⟨(d x hx).1 r, by
        rintro ⟨k, hk, h1, h2, rfl⟩
        exact (d x hx).2 k hk ⟨h1, h2⟩⟩, e, f⟩,
     fun ⟨a, b, c, d, e, f⟩ => ⟨a, b, c, fun x hx => ⟨fun r hr => (d x hx r).1 hr, fun k hk h =>
        (d x hx _).2 ⟨k, hk, h.1, h.2, rfl⟩⟩, e, f⟩⟩

instance (s t : Table) : Decidable (Touched s t) := by unfold Touched; infer_instance

instance (s t : Table) : Decidable (Comparable s t) :=
  decidable_of_iff (((liveColumns s).map fun c => fold c.columnName).Nodup ∧
      ((liveIndexes s).map fun x => fold x.indexName).Nodup ∧
      (∀ x ∈ liveConstraints (nameTable s), ∀ y ∈ liveConstraints (nameTable t),
        x.constraintName = y.constraintName → ruleOf x = ruleOf y) ∧
      (∀ x ∈ liveIndexes s, ∀ y ∈ liveIndexes t, x.indexName = y.indexName →
        idxOfIndex x = idxOfIndex y) ∧
      ((∃ x ∈ liveColumns s, hasColumn t x.columnName = false) → Touched s t))
    ⟨fun ⟨a, b, c, d, e⟩ => ⟨a, b, c, d, e⟩, fun ⟨a, b, c, d, e⟩ => ⟨a, b, c, d, e⟩⟩

end LiteSchema

namespace Sqddl.Sqlite
open SqlSpec CatalogSpec LiteText LiteSchema
open LiteSpec (fold)

/-- A new database. -/
def _root_.LiteSchema.blank : Sch := ⟨fun _ => none, fun _ => none⟩

theorem made_shows {t : Table} (h : Whole t)
    (hn : ((made (nameTable t)).cols.map fun c => fold c.name).Nodup) :
    Shows (made (nameTable t)) t := by
  obtain ⟨h1, h2, h3⟩ := made_reached h none hn
  refine ⟨h1, fun n => ?_, h3⟩
  rcases h2 n with h | ⟨s, hs, -⟩
  · exact h
  · cases hs

/-- A database that has been created with the tables of a catalog holds them. -/
theorem created_holds {ts : List Table} (hw : ∀ t ∈ ts, Whole t) {fk : Bool} {db : Sch}
    (h : run fk blank ((ts.map nameTable).flatMap createOf) = some db) : ∀ t ∈ ts, Holds db t := by
  obtain ⟨-, -, h3, -⟩ := creates_view (R := fun _ => False) (fun _ _ _ _ _ h => h.elim)
    (fun _ _ _ _ h => h.elim) (fun t ht x hx => by
      obtain ⟨y, hy, rfl⟩ := List.mem_map.1 ht
      exact ((whole_name (hw y hy)).indexes x hx).2) h
  intro t ht
  obtain ⟨-, k2, f, k3, k4⟩ := h3 _ (List.mem_map.2 ⟨t, ht, rfl⟩)
  rw [(nameTable_fields t).1] at k3
  rw [(nameTable_fields t).2.2.2.1] at k4
  obtain ⟨e4, e5⟩ := view_some.1 k3
  refine ⟨_, e4, made_shows (hw t ht) k2, fun n x => ?_⟩
  rw [whole_indexes (hw t ht), ← k4, ← e5, on_some]

theorem created_free {ts : List Table} {R : Str → Prop} (hw : ∀ t ∈ ts, Whole t)
    (hR : ∀ t ∈ ts, ∀ n, R n → ¬ LiteSpec.References t n) {db : Sch}
    (h : run true blank ((ts.map nameTable).flatMap createOf) = some db) : NoRef R db := by
  obtain ⟨-, -, -, h4⟩ := creates_view (R := R) (fun _ u U h => by cases h)
    (fun _ t ht n hn href => by
      obtain ⟨y, hy, rfl⟩ := List.mem_map.1 ht
      exact hR y hy n hn (references_name href)) (fun t ht x hx => by
      obtain ⟨y, hy, rfl⟩ := List.mem_map.1 ht
      exact ((whole_name (hw y hy)).indexes x hx).2) h
  exact h4 rfl

end Sqddl.Sqlite

namespace Sqddl.Sqlite.Samples
open SqlSpec Sqddl LiteText CatalogSpec
open LiteSpec (fold References Clear)
open LiteSchema hiding Rule ruleOf

def refCol (t n r : Str) (nn : Bool := false) : Column :=
  { col t n b!"INT" nn with referencesTable := r, referencesColumn := b!"id",
                            deleteRule := b!"CASCADE" }

/-- Users and their posts, and a table that is no longer needed. -/
def s6 : Schema :=
  { tables := [
    { tableName := b!"users", columns := [idCol b!"users", col b!"users" b!"name" b!"TEXT",
        col b!"users" b!"fax" b!"TEXT"],
      constraints := [pk b!"users" [b!"id"]],
      indexes := [idx b!"users" b!"users_fax" b!"fax", idx b!"users" b!"users_name" b!"name"] },
    { tableName := b!"posts", columns := [idCol b!"posts", refCol b!"posts" b!"author" b!"users",
        col b!"posts" b!"title" b!"TEXT"],
      constraints := [pk b!"posts" [b!"id"], fkey b!"posts" b!"author" b!"users"],
      indexes := [idx b!"posts" b!"posts_author" b!"author"] },
    { tableName := b!"same", columns := [{ col b!"same" b!"x" b!"INT" with
        columnDefault := b!"TRUE" }] },
    { tableName := b!"old", columns := [col b!"old" b!"x" b!"INT"] }] }

/-- Fax numbers are gone and a user has a boss, the author of a post is required, and there is a table
for tags. -/
def d6 : Schema :=
  { tables := [
    { tableName := b!"users", columns := [idCol b!"users", col b!"users" b!"name" b!"TEXT",
        refCol b!"users" b!"boss" b!"users"],
      constraints := [pk b!"users" [b!"id"], fkey b!"users" b!"boss" b!"users"],
      indexes := [idx b!"users" b!"users_name" b!"name", idx b!"users" b!"users_boss" b!"boss"] },
    { tableName := b!"posts", columns := [idCol b!"posts",
        refCol b!"posts" b!"author" b!"users" true, col b!"posts" b!"title" b!"TEXT"],
      constraints := [pk b!"posts" [b!"id"], fkey b!"posts" b!"author" b!"users"],
      indexes := [idx b!"posts" b!"posts_title" b!"title"] },
    { tableName := b!"same", columns := [{ col b!"same" b!"x" b!"INT" with
        columnDefault := b!"1" }] },
    { tableName := b!"tags", columns := [col b!"tags" b!"tag" b!"TEXT" true,
        refCol b!"tags" b!"user" b!"users"],
      constraints := [fkey b!"tags" b!"user" b!"users"] }] }

theorem s6_ok : SqliteOk (cat s6) s6 := ⟨by decide +kernel, rfl⟩
theorem d6_ok : SqliteOk (cat d6) d6 := ⟨by decide +kernel, rfl⟩
theorem clear6 : Clear s6 d6 where
  writable := by decide +kernel
  readable := by decide +kernel
  common := by
    have h : ∀ p ∈ sqlitePairs s6 d6, Copied p.1 p.2 b!"id" ∨ Copied p.1 p.2 b!"x" := by
      decide +kernel
    exact fun p hp => (h p hp).elim (fun h => ⟨_, h⟩) fun h => ⟨_, h⟩
  srcNames := by decide +kernel
  destNames := by decide +kernel

theorem whole_s6 : ∀ t ∈ s6.tables, Whole t := by decide +kernel
theorem whole_d6 : ∀ t ∈ sqliteTables d6, Whole t := by decide +kernel
theorem comparable6 : ∀ p ∈ sqlitePairs s6 d6, Comparable p.1 p.2 := by decide +kernel

/-- The database of the source. -/
def made6 : Option Sch := run true blank ((s6.tables.map nameTable).flatMap createOf)

/-- The statements of the migration. -/
def sts6 : List LiteText.Stmt := planOf true (sqliteEvents (cat s6) (cat d6) true)

theorem made6_some : made6.isSome = true := by decide +kernel

/-- The statements succeed. -/
theorem run6_some : (made6.bind fun db => run true db sts6).isSome = true := by decide +kernel

/-- `sqlite_converges_partial` on the sample: the migration is written, it runs on the database of the
source, and the database is then that of the destination. -/
example : ∃ files sts db db', migration b!"01" (cat s6) (cat d6) true = some files ∧
    LiteText.runScript (keywords .sqlite) [] (files.flatMap (·.2)) = some sts ∧
    made6 = some db ∧ run true db sts = some db' ∧
    (∀ t ∈ s6.tables, Holds db t) ∧
    (∀ t ∈ d6.tables, ∃ T, db'.table (fold t.tableName) = some T ∧
      Reached ((s6.tables.filter fun x => !x.ignore).find? fun x => x.tableName == t.tableName) T t ∧
      IndexesAre db' t t.indexes) ∧ db'.table b!"old" = none := by
  have hm : (migration b!"01" (cat s6) (cat d6) true).isSome = true := by decide +kernel
  obtain ⟨files, hm⟩ := Option.isSome_iff_exists.1 hm
  obtain ⟨db, hdb⟩ := Option.isSome_iff_exists.1 made6_some
  have hr := run6_some
  rw [hdb, Option.bind_some] at hr
  obtain ⟨db', hdb'⟩ := Option.isSome_iff_exists.1 hr
  have hcopy : hasCopy ((sqliteEvents (cat s6) (cat d6) true).filterMap Ev.alter?) = some true := by
    decide +kernel
  obtain ⟨copy, h1, h2⟩ := migration_plan s6_ok d6_ok true clear6 b!"01" files hm
  rw [hcopy] at h1
  cases h1
  obtain ⟨sts, e, h⟩ := sqlite_converges_partial s6_ok d6_ok clear6 whole_d6 comparable6 b!"01"
    files hm
  rw [h2] at e
  cases e
  have hold := created_holds whole_s6 hdb
  have hfree := created_free (R := fun n => ∃ t ∈ sqliteTables d6, n = fold (t.tableName ++ b!"_new"))
    whole_s6 (by
      rintro t ht n ⟨x, hx, rfl⟩
      exact (by decide +kernel : ∀ t ∈ s6.tables, ∀ x ∈ sqliteTables d6,
        ¬ References t (fold (x.tableName ++ b!"_new"))) t ht x hx) hdb
  obtain ⟨k1, k2, -⟩ := h true db db'
    (fun p hp => hold p.1 (List.mem_filter.1 (mem_pairs hp).1).1)
    (fun _ t ht => ⟨fun u U hu => hfree u U hu _ ⟨t, ht, rfl⟩,
      (by decide +kernel : ∀ t ∈ sqliteTables d6, ∀ x ∈ sqliteTables d6,
        ¬ References x (fold (t.tableName ++ b!"_new"))) t ht⟩) hdb'
  refine ⟨files, sts6, db, db', hm, h2, hdb, hdb', hold, fun t ht => k1 t ?_, ?_⟩
  · rw [show sqliteTables d6 = d6.tables by decide +kernel]
    exact ht
  · exact k2 (s6.tables[3]'(by decide)) (by decide +kernel) (by decide +kernel) (by decide +kernel)

end Sqddl.Sqlite.Samples
