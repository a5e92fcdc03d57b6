import Verif.Props.SqliteConvergesSample

/-!
# A SQLite migration without dropObjects adds what is missing (C71)
-/

namespace LiteSchema
open SqlSpec Sqddl LiteText CatalogSpec DdlSpec
open LiteSpec (fold findCol)
open DdlText hiding Stmt readStmt runScript Rule ruleOf

/-- The columns of the destination that the source does not have. -/
def missingCols (s t : Table) : List Column :=
  (liveColumns t).filter fun y => !hasColumn s y.columnName

/-- The table is that of the source, and has in addition the columns that are missing and the
references of these columns.  (A constraint that is missing on other columns is not added, and a
column is not changed.) -/
structure Grown (s t : Table) (T : Shape) : Prop where
  names : (T.cols.map fun c => fold c.name).Nodup
  cols : ∀ n, (findCol T.cols n).map bare =
    (findCol (colsOfTable s ++ (missingCols s t).map (colOf .sqlite [] false)) n).map bare
  rules : ∀ r, r ∈ T.rules ↔ (∃ c ∈ liveConstraints s, ruleOf c = r) ∨
    ∃ y ∈ missingCols s t, ∃ k ∈ liveConstraints t, k.constraintType = b!"FOREIGN KEY" ∧
      k.columns = [y.columnName] ∧ ruleOf k = r

end LiteSchema

namespace Sqddl.Sqlite
open Go SqlSpec CatalogSpec Sqddl.Render Sqddl.Files LiteText
open LiteSpec (fold key findCol inCon colsOf consOf References)
open DdlText hiding Stmt readStmt runScript Stmt.resolve Rule ruleOf
open LiteSchema

variable {fk : Bool}

/-- The differences of two tables without dropObjects. -/
structure Part (s t : Table) (a : AlterTable) : Prop where
  destTable : a.destTable = nameTable t
  dropColumns : a.dropColumns = []
  addColumns : a.addColumns = missingCols s t
  dropIndexes : a.dropIndexes = []
  createIndexes : a.createIndexes = (liveIndexes t).filter fun x => !hasIndex s x.indexName
  dropConstraints : a.dropConstraints = []
  addConstraints : a.addConstraints = []
  alterColumns : a.alterColumns = []

theorem part_copies {s t : Table} {a : AlterTable} (h : Part s t a) : copies a = some false := by
  unfold copies
  rw [h.alterColumns, h.dropConstraints, h.addConstraints]
  rfl

/-- The table with its indexes. -/
def Bigger (s t : Table) (v : Option (Shape × (Str → Option Idx))) : Prop :=
  ∃ T f, v = some (T, f) ∧ Grown s t T ∧
    ∀ n x, f n = some x ↔ ∃ y, (y ∈ liveIndexes s ∨ y ∈ liveIndexes t ∧
      hasIndex s y.indexName = false) ∧ fold y.indexName = n ∧ idxOfIndex y = x

section
variable {s t : Table} {a : AlterTable} {T : Shape}

theorem findCol_bare_append (a b c d : List Col)
    (h1 : ∀ n, (findCol a n).map bare = (findCol c n).map bare)
    (h2 : ∀ n, (findCol b n).map bare = (findCol d n).map bare) (n : Str) :
    (findCol (a ++ b) n).map bare = (findCol (c ++ d) n).map bare := by
  rw [findCol_append, findCol_append]
  have h1 := h1 n
  have h2 := h2 n
  cases e1 : findCol a n <;> cases e2 : findCol c n <;> rw [e1, e2] at h1 <;> simp_all

theorem findCol_bare_map (ys : List Column) (n : Str) :
    (findCol (ys.map (colOf .sqlite [] true)) n).map bare =
      (findCol (ys.map (colOf .sqlite [] false)) n).map bare := by
  induction ys with
  | nil => rfl
  | cons y ys ih =>
    unfold findCol at ih ⊢
    rw [List.map_cons, List.map_cons, List.find?_cons, List.find?_cons]
    by_cases e : (fold (colOf .sqlite [] true y).name == n) = true
    · have e' : (fold (colOf .sqlite [] false y).name == n) = true := e
      rw [e, e']
      exact congrArg some (colOf_bare y)
    · rw [Bool.not_eq_true] at e
      have e' : (fold (colOf .sqlite [] false y).name == n) = false := e
      rw [e, e']
      exact ih

theorem changed_nil (h : a.dropColumns = []) (T : Shape) :
    changed a T = { T with cols := T.cols ++ a.addColumns.map (colOf .sqlite [] true) } := by
  unfold changed
  rw [h]
  simp

/-- The rules of a column that is added. -/
theorem added_rules (hw : Whole t) {y : Column} (hl : y ∈ liveColumns t)
    (h1 : (colOf .sqlite [] true y).primary = false)
    (h2 : (colOf .sqlite [] true y).unique = false) (r : Rule) :
    r ∈ colRules (colOf .sqlite [] true y) ↔
      ∃ k ∈ liveConstraints t, k.constraintType = b!"FOREIGN KEY" ∧
        k.columns = [y.columnName] ∧ ruleOf k = r := by
  rw [← hw.refs y hl r]
  have e : { bare (colOf .sqlite [] true y) with
      ref := (colOf .sqlite [] true y).ref
      deferrable := (colOf .sqlite [] true y).deferrable
      initiallyDeferred := (colOf .sqlite [] true y).initiallyDeferred } =
      colOf .sqlite [] true y := by
    generalize colOf .sqlite [] true y = c at h1 h2
    obtain ⟨⟩ := c
    simp only at h1 h2
    subst h1 h2
    rfl
  rw [e]

theorem part_grown (hf : Part s t a) (hw : Whole t) (hT : Shows T s)
    (hn : ((changed a T).cols.map fun c => fold c.name).Nodup)
    (hadd : ∀ c ∈ a.addColumns, (colOf .sqlite [] true c).primary = false ∧
      (colOf .sqlite [] true c).unique = false) : Grown s t (changed a T) := by
  refine ⟨hn, fun n => ?_, fun r => ?_⟩
  · rw [changed_nil hf.dropColumns, hf.addColumns]
    exact findCol_bare_append _ _ _ _ hT.cols (findCol_bare_map _) n
  · rw [changed_nil hf.dropColumns, mem_rules, ← hT.rules, mem_rules]
    dsimp only
    have hnew : ∀ y ∈ missingCols s t, (r ∈ colRules (colOf .sqlite [] true y) ↔
        ∃ k ∈ liveConstraints t, k.constraintType = b!"FOREIGN KEY" ∧
          k.columns = [y.columnName] ∧ ruleOf k = r) := fun y hy =>
      added_rules hw (List.mem_filter.1 hy).1 (hadd y (by rw [hf.addColumns]; exact hy)).1
        (hadd y (by rw [hf.addColumns]; exact hy)).2 r
    rw [hf.addColumns]
    constructor
    · rintro (⟨c, hc, hr⟩ | h)
      · rcases List.mem_append.1 hc with hc | hc
        · exact Or.inl (Or.inl ⟨c, hc, hr⟩)
        · obtain ⟨y, hy, rfl⟩ := List.mem_map.1 hc
          exact Or.inr ⟨y, hy, (hnew y hy).1 hr⟩
      · exact Or.inl (Or.inr h)
    · rintro ((⟨c, hc, hr⟩ | h) | ⟨y, hy, h⟩)
      · exact Or.inl ⟨c, List.mem_append_left _ hc, hr⟩
      · exact Or.inr h
      · exact Or.inl ⟨_, List.mem_append_right _ (List.mem_map.2 ⟨y, hy, rfl⟩), (hnew y hy).2 h⟩

/-- A table to which something is added. -/
theorem part_step {R : Str → Prop} (hf : Part s t a) (hw : Whole t) {db db' : Sch}
    (hI : fk = true → NoRef R db) (hd : fk = true → ∀ n, R n → ¬ References t n)
    (hk : Start s (view db (fold t.tableName)))
    (h : run fk db (changeOf a) = some db') :
    ∃ v, view db' = put (view db) (fold t.tableName) v ∧ Bigger s t v ∧
      (fk = true → NoRef R db') := by
  unfold changeOf at h
  rw [part_copies hf, if_neg (by simp)] at h
  obtain ⟨T, f, hv, hT, hi⟩ := hk
  have en : a.destTable.tableName = t.tableName := by rw [hf.destTable, (nameTable_fields t).1]
  obtain ⟨-, h2, h3, f', h4, h5⟩ := inPlace_view (a := a) (by rw [en]; exact hv) hT.names
    (by rw [hf.dropIndexes]; simp) (by rw [hf.dropIndexes]; simp)
    (fun x hx => by
      rw [hf.createIndexes] at hx
      have := (List.mem_filter.1 hx).1
      rw [whole_indexes hw] at this
      rw [en]
      exact (hw.indexes x this).2) h
  rw [en] at h4
  refine ⟨_, h4, ⟨_, _, rfl, part_grown hf hw hT h3 h2, fun n x => ?_⟩, fun e => ?_⟩
  · rw [h5, hi, hf.dropIndexes, hf.createIndexes]
    constructor
    · rintro (⟨⟨y, hy, h⟩, -⟩ | ⟨y, hy, h⟩)
      · exact ⟨y, Or.inl hy, h⟩
      · obtain ⟨h1, h2⟩ := List.mem_filter.1 hy
        exact ⟨y, Or.inr ⟨h1, by simpa using h2⟩, h⟩
    · rintro ⟨y, hy | ⟨h1, h2⟩, h⟩
      · exact Or.inl ⟨⟨y, hy, h⟩, by simp⟩
      · exact Or.inr ⟨y, List.mem_filter.2 ⟨h1, by rw [h2]; rfl⟩, h⟩
  · refine noRef_put (hI e) (fun n hn => ?_) h4
    have hT' := (hI e) _ T (view_some.1 hv).1 n hn
    rw [changed_nil hf.dropColumns]
    refine ⟨fun c hc r hr => ?_, hT'.2⟩
    rcases List.mem_append.1 hc with hc | hc
    · exact hT'.1 c hc r hr
    · obtain ⟨x, hx, rfl⟩ := List.mem_map.1 hc
      rw [hf.addColumns] at hx
      intro e'
      refine hd e n hn (Or.inr ⟨x, (List.mem_filter.1 hx).1, ?_⟩)
      simp only [colOf, if_true] at hr
      cases e2 : refOf x with
      | none => rw [e2] at hr; cases hr
      | some q => rw [e2] at hr; cases hr; exact ⟨_, rfl, e'⟩

/-- A table to which nothing is added. -/
theorem part_same (h1 : missingCols s t = [])
    (h2 : ((liveIndexes t).filter fun x => !hasIndex s x.indexName) = [])
    {v : Option (Shape × (Str → Option Idx))} (hk : Start s v) : Bigger s t v := by
  obtain ⟨T, f, hv, hT, hi⟩ := hk
  refine ⟨T, f, hv, ⟨hT.names, fun n => ?_, fun r => ?_⟩, fun n x => ?_⟩
  · rw [h1, hT.cols]
    simp
  · rw [hT.rules, h1]
    simp
  · rw [hi]
    constructor
    · rintro ⟨y, hy, h⟩; exact ⟨y, Or.inl hy, h⟩
    · rintro ⟨y, hy | ⟨k1, k2⟩, h⟩
      · exact ⟨y, hy, h⟩
      · have := List.filter_eq_nil_iff.1 h2 y k1
        rw [k2] at this
        exact absurd rfl this

end

section
variable {src dest : Catalog} {s d : Schema} (hs : SqliteOk src s) (hd : SqliteOk dest d)
include hs hd

/-- The tables that are altered. -/
theorem alter_of_pair_keep (a : AlterTable) :
    a ∈ (sqliteEvents src dest false).filterMap Ev.alter? ↔
      ∃ p ∈ sqlitePairs s d, ∃ b, b = sqliteFullAlter (newCatalogCache (sqliteNameConstraints src))
          (newCatalogCache (sqliteNameConstraints dest)) (nameTable p.1) (nameTable p.2) ∧
        (!b.addColumns.isEmpty || !b.createIndexes.isEmpty) = true ∧
        a = { b with dropIndexes := [], dropConstraints := [], dropColumns := [],
                     alterColumns := [], addConstraints := [] } := by
  have he : sqliteEvents src dest false = diffEvents .sqlite src dest false := rfl
  rw [he, sqlite_events hs hd, sqlite_alters_eq hs.ok hd.ok hs.mem hd.mem, sqlitePairs_name,
    List.mem_flatMap]
  constructor
  · rintro ⟨q, hq, ha⟩
    obtain ⟨p, hp, rfl⟩ := List.mem_map.1 hq
    refine ⟨p, hp, _, rfl, ?_⟩
    unfold sqliteAlterEvents at ha
    split at ha
    · rw [if_neg (by simp)] at ha
      split at ha
      · rename_i hk
        simp only [List.filterMap_cons, Ev.alter?, List.filterMap_nil, List.mem_singleton] at ha
        exact ⟨hk, ha⟩
      · cases ha
    · cases ha
  · rintro ⟨p, hp, b, hb, hk, rfl⟩
    refine ⟨_, List.mem_map.2 ⟨p, hp, rfl⟩, ?_⟩
    have hw : b.worthKeeping = true := by
      unfold AlterTable.worthKeeping
      rw [Bool.or_eq_true] at hk
      rcases hk with hk | hk <;> rw [hk] <;> simp
    dsimp only
    rw [← hb]
    unfold sqliteAlterEvents
    rw [if_pos hw, if_neg (by simp), if_pos hk]
    simp [Ev.alter?]

/-- C71 for SQLite, without dropObjects: if all statements of the migration succeed, new
tables are those of the destination, every table that both catalogs have is what it was with the
missing columns (and their references) and the missing indexes added, and all other tables are what
they were. -/
theorem sqlite_grows_partial (hc : LiteSpec.Clear s d) (hw : ∀ t ∈ sqliteTables d, Whole t)
    (pre : Str) (files : List Files.File) (hf : migration pre src dest false = some files) :
    ∃ sts, LiteText.runScript (keywords .sqlite) [] (files.flatMap (·.2)) = some sts ∧
      ∀ (fk : Bool) (db db' : Sch), (∀ p ∈ sqlitePairs s d, Holds db p.1) →
        (fk = true → Apart db d) → run fk db sts = some db' →
        (∀ t ∈ sqliteTables d, (∀ x ∈ s.tables, x.ignore = false → x.tableName ≠ t.tableName) →
          ∃ T, db'.table (fold t.tableName) = some T ∧ Shows T t ∧ IndexesAre db' t t.indexes) ∧
        (∀ p ∈ sqlitePairs s d, ∃ T, db'.table (fold p.2.tableName) = some T ∧ Grown p.1 p.2 T ∧
          IndexesAre db' p.2 (liveIndexes p.1 ++
            (liveIndexes p.2).filter fun x => !hasIndex p.1 x.indexName)) ∧
        ∀ k, (∀ t ∈ sqliteTables d, fold t.tableName ≠ k) → SameTable db db' k := by
  obtain ⟨copy, hcopy, hread⟩ := migration_plan hs hd false hc pre files hf
  refine ⟨_, hread, fun fk db db' hdb hfk hrun => ?_⟩
  have hpart : ∀ p ∈ sqlitePairs s d, Part p.1 p.2
      { sqliteFullAlter (newCatalogCache (sqliteNameConstraints src))
          (newCatalogCache (sqliteNameConstraints dest)) (nameTable p.1) (nameTable p.2) with
        dropIndexes := [], dropConstraints := [], dropColumns := [], alterColumns := [],
        addConstraints := [] } := fun p hp =>
    have h := full_of_pair hs hd hp
    ⟨h.destTable, rfl, h.addColumns, rfl, h.createIndexes, rfl, rfl, rfl⟩
  obtain ⟨h1, h2, -, h4⟩ := plan_views hs hd false hc hw
    (fun p => { sqliteFullAlter (newCatalogCache (sqliteNameConstraints src))
        (newCatalogCache (sqliteNameConstraints dest)) (nameTable p.1) (nameTable p.2) with
      dropIndexes := [], dropConstraints := [], dropColumns := [], alterColumns := [],
      addConstraints := [] })
    (fun p => !(sqliteFullAlter (newCatalogCache (sqliteNameConstraints src))
        (newCatalogCache (sqliteNameConstraints dest)) (nameTable p.1)
        (nameTable p.2)).addColumns.isEmpty ||
      !(sqliteFullAlter (newCatalogCache (sqliteNameConstraints src))
        (newCatalogCache (sqliteNameConstraints dest)) (nameTable p.1)
        (nameTable p.2)).createIndexes.isEmpty)
    (fun x y => Bigger x y)
    (fun a => by
      rw [alter_of_pair_keep hs hd]
      constructor
      · rintro ⟨p, hp, b, rfl, hk, rfl⟩; exact ⟨p, hp, hk, rfl⟩
      · rintro ⟨p, hp, hk, rfl⟩; exact ⟨p, hp, _, rfl, hk, rfl⟩)
    (fun p hp => (hpart p hp).destTable)
    (fun p hp _ d1 d2 hI hR hst hrun => part_step (hpart p hp) (hw _ (mem_pairs hp).2.1) hI hR hst
      hrun)
    (fun p hp hk v hst => by
      have h := full_of_pair hs hd hp
      simp only [Bool.or_eq_false_iff, Bool.not_eq_false', List.isEmpty_iff] at hk
      exact part_same (h.addColumns.symm.trans hk.1) (h.createIndexes.symm.trans hk.2) hst)
    hcopy hdb hfk hrun
  refine ⟨fun t ht hno => ?_, fun p hp => ?_, fun k hk => h4 k hk fun h => (by cases h)⟩
  · obtain ⟨T, e1, ⟨k1, k2, k3⟩, e3⟩ := Good.spelled (h2 t ht (by
      rw [List.find?_eq_none]
      intro x hx
      have := List.mem_filter.1 hx
      simpa using hno x this.1 (by simpa using this.2)))
    refine ⟨T, e1, ⟨k1, fun n => ?_, k3⟩, e3⟩
    rcases k2 n with h | ⟨_, h, -⟩
    · exact h
    · cases h
  · obtain ⟨T, f, e1, e2, e3⟩ := h1 p hp
    obtain ⟨e4, e5⟩ := view_some.1 e1
    refine ⟨T, e4, e2, fun n x => ?_⟩
    rw [← on_some, e5, e3]
    constructor
    · rintro ⟨y, hy | ⟨k1, k2⟩, h⟩
      · exact ⟨y, List.mem_append_left _ hy, h⟩
      · exact ⟨y, List.mem_append_right _ (List.mem_filter.2 ⟨k1, by rw [k2]; rfl⟩), h⟩
    · rintro ⟨y, hy, h⟩
      rcases List.mem_append.1 hy with hy | hy
      · exact ⟨y, Or.inl hy, h⟩
      · obtain ⟨k1, k2⟩ := List.mem_filter.1 hy
        exact ⟨y, Or.inr ⟨k1, by simpa using k2⟩, h⟩

end

end Sqddl.Sqlite

namespace Sqddl.Sqlite.Samples
open SqlSpec Sqddl LiteText CatalogSpec
open LiteSpec (fold References Clear)
open LiteSchema hiding Rule ruleOf

/-- The statements of the migration without dropObjects. -/
def sts6' : List LiteText.Stmt := planOf false (sqliteEvents (cat s6) (cat d6) false)

/-- `sqlite_grows_partial` on the sample: fax numbers stay, a boss is added, and the author of a post
is not yet required. -/
example : ∃ files sts db db', migration b!"01" (cat s6) (cat d6) false = some files ∧
    LiteText.runScript (keywords .sqlite) [] (files.flatMap (·.2)) = some sts ∧
    made6 = some db ∧ run true db sts = some db' ∧
    (∀ p ∈ sqlitePairs s6 d6, ∃ T, db'.table (fold p.2.tableName) = some T ∧ Grown p.1 p.2 T) ∧
    (∃ T, db'.table b!"tags" = some T ∧ Shows T (d6.tables[3]'(by decide))) ∧
    SameTable db db' b!"old" := by
  have hm : (migration b!"01" (cat s6) (cat d6) false).isSome = true := by decide +kernel
  obtain ⟨files, hm⟩ := Option.isSome_iff_exists.1 hm
  obtain ⟨db, hdb⟩ := Option.isSome_iff_exists.1 made6_some
  have hr : (made6.bind fun db => run true db sts6').isSome = true := by decide +kernel
  rw [hdb, Option.bind_some] at hr
  obtain ⟨db', hdb'⟩ := Option.isSome_iff_exists.1 hr
  have hcopy : hasCopy ((sqliteEvents (cat s6) (cat d6) false).filterMap Ev.alter?) =
      some false := by decide +kernel
  obtain ⟨copy, h1, h2⟩ := migration_plan s6_ok d6_ok false clear6 b!"01" files hm
  rw [hcopy] at h1
  cases h1
  obtain ⟨sts, e, h⟩ := sqlite_grows_partial s6_ok d6_ok clear6 whole_d6 b!"01" files hm
  rw [h2] at e
  cases e
  have hold := created_holds whole_s6 hdb
  have hfree := created_free (R := fun n => ∃ t ∈ sqliteTables d6, n = fold (t.tableName ++ b!"_new"))
    whole_s6 (by
      rintro t ht n ⟨x, hx, rfl⟩
      exact (by decide +kernel : ∀ t ∈ s6.tables, ∀ x ∈ sqliteTables d6,
        ¬ References t (fold (x.tableName ++ b!"_new"))) t ht x hx) hdb
  obtain ⟨k1, k2, k3⟩ := h true db db'
    (fun p hp => hold p.1 (List.mem_filter.1 (mem_pairs hp).1).1)
    (fun _ t ht => ⟨fun u U hu => hfree u U hu _ ⟨t, ht, rfl⟩,
      (by decide +kernel : ∀ t ∈ sqliteTables d6, ∀ x ∈ sqliteTables d6,
        ¬ References x (fold (t.tableName ++ b!"_new"))) t ht⟩) hdb'
  refine ⟨files, sts6', db, db', hm, h2, hdb, hdb', fun p hp => ?_, ?_, ?_⟩
  · obtain ⟨T, e1, e2, -⟩ := k2 p hp
    exact ⟨T, e1, e2⟩
  · obtain ⟨T, e1, e2, -⟩ := k1 (d6.tables[3]'(by decide)) (by decide +kernel) (by decide +kernel)
    exact ⟨T, e1, e2⟩
  · exact k3 b!"old" (by decide +kernel)

/-! ## What `Comparable` excludes -/

/-- A migration without statements, and a database that is not that of the destination: -/
def Stuck (s d : Schema) : Prop :=
  SqliteOk (cat s) s ∧ SqliteOk (cat d) d ∧ Clear s d ∧ (∀ t ∈ s.tables, Whole t) ∧
  (∀ t ∈ sqliteTables d, Whole t) ∧ migration b!"01" (cat s) (cat d) true = some [] ∧
  ∃ db, (∀ t ∈ s.tables, Holds db t) ∧ ∃ t ∈ sqliteTables d,
    ∀ T old, db.table (fold t.tableName) = some T → ¬ Reached old T t

def posts7 (rule : Str) : Table :=
  { tableName := b!"posts",
    columns := [idCol b!"posts", { refCol b!"posts" b!"author" b!"users" with deleteRule := rule }],
    constraints := [pk b!"posts" [b!"id"],
      { fkey b!"posts" b!"author" b!"users" with deleteRule := rule }] }

/-- C71: the foreign key is to restrict and no longer to cascade, and nothing happens: constraints are
compared by the names that are generated from their columns. -/
theorem sqlite_changed_fkey_refuted :
    Stuck { tables := [posts7 b!"CASCADE"] } { tables := [posts7 b!"RESTRICT"] } := by
  refine ⟨⟨by decide +kernel, rfl⟩, ⟨by decide +kernel, rfl⟩, ⟨by decide +kernel, by decide +kernel,
    fun p hp => ⟨b!"id", (by decide +kernel : ∀ p ∈ sqlitePairs { tables := [posts7 b!"CASCADE"] }
      { tables := [posts7 b!"RESTRICT"] }, Copied p.1 p.2 b!"id") p hp⟩, by decide +kernel,
    by decide +kernel⟩, by decide +kernel, by decide +kernel, by decide +kernel, ?_⟩
  have hm : (run true blank (([posts7 b!"CASCADE"].map nameTable).flatMap createOf)).isSome = true := by
    decide +kernel
  obtain ⟨db, hdb⟩ := Option.isSome_iff_exists.1 hm
  have hold := created_holds (by decide +kernel) hdb
  refine ⟨db, hold, posts7 b!"RESTRICT", by decide +kernel, fun T old hT hr => ?_⟩
  obtain ⟨T', e1, e2, -⟩ := hold (posts7 b!"CASCADE") (by simp)
  have e1 : db.table (fold (posts7 b!"RESTRICT").tableName) = some T' := e1
  rw [hT] at e1
  cases e1
  have h1 := (hr.rules (LiteSchema.ruleOf (((posts7 b!"RESTRICT").constraints)[1]'(by decide)))).2
    ⟨_, by decide +kernel, rfl⟩
  obtain ⟨k, hk, e⟩ := (e2.rules _).1 h1
  revert k
  decide +kernel

def posts8 (cs : List Column) : Table :=
  { tableName := b!"posts", columns := idCol b!"posts" :: cs,
    constraints := [pk b!"posts" [b!"id"]] }

/-- C71: a column is to be removed, and nothing happens: a table is not altered if there is no other
difference. -/
theorem sqlite_surplus_stays_refuted :
    Stuck { tables := [posts8 [col b!"posts" b!"fax" b!"TEXT"]] } { tables := [posts8 []] } := by
  refine ⟨⟨by decide +kernel, rfl⟩, ⟨by decide +kernel, rfl⟩, ⟨by decide +kernel, by decide +kernel,
    fun p hp => ⟨b!"id", (by decide +kernel : ∀ p ∈ sqlitePairs
      { tables := [posts8 [col b!"posts" b!"fax" b!"TEXT"]] }
      { tables := [posts8 []] }, Copied p.1 p.2 b!"id") p hp⟩, by decide +kernel,
    by decide +kernel⟩, by decide +kernel, by decide +kernel, by decide +kernel, ?_⟩
  have hm : (run true blank (([posts8 [col b!"posts" b!"fax" b!"TEXT"]].map nameTable).flatMap
    createOf)).isSome = true := by decide +kernel
  obtain ⟨db, hdb⟩ := Option.isSome_iff_exists.1 hm
  have hold := created_holds (by decide +kernel) hdb
  refine ⟨db, hold, posts8 [], by decide +kernel, fun T old hT hr => ?_⟩
  obtain ⟨T', e1, e2, -⟩ := hold (posts8 [col b!"posts" b!"fax" b!"TEXT"]) (by simp)
  have e1 : db.table (fold (posts8 []).tableName) = some T' := e1
  rw [hT] at e1
  cases e1
  have h1 := e2.cols b!"fax"
  rcases hr.cols b!"fax" with h | ⟨s, -, a, -, b, hb, -, hn, -⟩
  · rw [h1] at h
    revert h
    decide +kernel
  · revert b
    decide +kernel

end Sqddl.Sqlite.Samples
