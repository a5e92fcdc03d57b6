import Verif.Props.ScriptIndexesMysql
import Verif.Props.ScriptIndexesSqlite
import Verif.Props.ScriptForeignSqlserver
import Verif.Props.ScriptRowsSample

/-!
# C110, C111: examples, and an index that is reported wrongly
-/

namespace Sqddl.Scripts
open OwnSpec KeySpec IndexSpec

/-! ## MySQL -/

/-- an index of a column and an expression, one that was made for a constraint, one of another database -/
def myIndexSample : List MyIndex :=
  [⟨b!"app", b!"users", b!"users_name", b!"BTREE", false, [(.column b!"org", false), (.expr b!"lower(`name`)", true)],
     false⟩,
   ⟨b!"app", b!"users", b!"users_email", b!"BTREE", true, [(.column b!"email", false)], true⟩,
   ⟨b!"other", b!"users", b!"users_name", b!"BTREE", true, [(.column b!"name", false)], false⟩]

/-- information_schema with its rows in the opposite order -/
def myIndexInfo : MyStats :=
  ⟨(myIndexSample.flatMap statRows).reverse, [(b!"app", b!"users", b!"users_email"), (b!"app", b!"users", b!"chk")]⟩

theorem myIndexSample_shows : MyIndexShows myIndexSample myIndexInfo where
  stats := List.reverse_perm _
  made := by
    intro i hi hm
    simp only [myIndexSample, List.mem_cons, List.not_mem_nil, or_false] at hi
    rcases hi with rfl | rfl | rfl
    · cases hm
    · exact List.mem_cons_self ..
    · cases hm

theorem myIndexSample_valid : MyIndexValid false myIndexSample where
  names := by decide
  parts := by
    intro i hi
    simp only [myIndexSample, List.mem_cons, List.not_mem_nil, or_false] at hi
    rcases hi with rfl | rfl | rfl <;> simp
  old := by intro h; cases h

theorem myIndexSample_apart : MyIndexApart myIndexSample myIndexInfo := by
  intro i hi hm
  simp only [myIndexSample, List.mem_cons, List.not_mem_nil, or_false] at hi
  rcases hi with rfl | rfl | rfl
  · decide
  · cases hm
  · decide

example : myIndexCols false { schemas := [b!"app"] } myIndexInfo =
    [(⟨b!"app", b!"users", b!"users_name", b!"BTREE", false⟩, [b!"org", b!"(lower(`name`))"], [false, true])] := by
  rfl

example := ((mysql_index_columns_partial (f := {}) oneOf_none oneOf_none myIndexSample_shows myIndexSample_valid
  myIndexSample_apart).1 (⟨b!"app", b!"users", b!"users_name", b!"BTREE", false⟩,
    [b!"org", b!"(lower(`name`))"], [false, true])).mpr
  ⟨_, List.mem_cons_self .., rfl, ⟨.inr (by unfold MyOwn; decide), ⟨.inl rfl, fun h => by cases h⟩, ⟨.inl rfl, fun h => by cases h⟩⟩, rfl⟩

/-! ## SQLite -/

/-- a table with an index of two columns and one of an expression -/
def liteIndexSample : LiteIndexed where
  name := b!"users"
  sql := b!"CREATE TABLE users (...)"
  indexes := [⟨b!"users_name", true, b!"CREATE UNIQUE INDEX ...", [some b!"org", some b!"name"]⟩,
    ⟨b!"users_lower", false, b!"CREATE INDEX ...", [none, some b!"org"]⟩]

/-- its pragmas -/
def liteIndexInfo : LiteIndexInfo where
  rows := [⟨b!"index", b!"users", []⟩, ⟨b!"table", b!"users", b!"CREATE TABLE users (...)"⟩]
  indexRows := [⟨b!"users_lower", b!"users", b!"CREATE INDEX ..."⟩,
    ⟨b!"users_name", b!"users", b!"CREATE UNIQUE INDEX ..."⟩]
  indexes := fun _ => [(b!"users_lower", false, 'c'), (b!"sqlite_autoindex_users_1", true, 'u'),
    (b!"users_name", true, 'c')]
  columns := fun i => if i = b!"users_name" then [(1, 2, some b!"name"), (0, 1, some b!"org")]
    else [(0, -2, none), (1, 1, some b!"org")]

theorem liteIndex_shows : LiteIndexShows [liteIndexSample] liteIndexInfo where
  rows := .refl _
  indexes := by
    intro t ht
    rw [List.mem_singleton.mp ht]
    exact .swap ..
  indexRows := by
    intro t ht i hi
    rw [List.mem_singleton.mp ht] at hi ⊢
    simp only [liteIndexSample, List.mem_cons, List.not_mem_nil, or_false] at hi
    rcases hi with rfl | rfl <;> rfl
  columns := by
    intro t ht i hi
    rw [List.mem_singleton.mp ht] at hi
    simp only [liteIndexSample, List.mem_cons, List.not_mem_nil, or_false] at hi
    rcases hi with rfl | rfl
    · exact ⟨fun n => n + 1, .swap ..⟩
    · exact ⟨fun n => n, .refl _⟩

theorem liteIndex_valid : LiteIndexValid [liteIndexSample] where
  names := List.pairwise_singleton ..
  indexes := by
    intro t ht
    rw [List.mem_singleton.mp ht]
    refine ⟨by decide, ?_⟩
    intro i hi
    simp only [liteIndexSample, List.mem_cons, List.not_mem_nil, or_false] at hi
    rcases hi with rfl | rfl <;> simp

theorem liteIndex_plain : LiteIndexPlain [liteIndexSample] := by
  intro t ht
  rw [List.mem_singleton.mp ht]
  exact ⟨fun _ => .inl (by decide), by decide⟩

example := ((sqlite_index_columns_partial (f := {}) oneOf_none liteIndex_shows liteIndex_valid liteIndex_plain).1
  (⟨b!"users", b!"users_name", true, b!"CREATE UNIQUE INDEX ..."⟩, [b!"org", b!"name"])).mp (by decide)

example := ((sqlite_index_columns_partial (f := {}) oneOf_none liteIndex_shows liteIndex_valid liteIndex_plain).1
  (⟨b!"users", b!"users_lower", false, b!"CREATE INDEX ..."⟩, [[], b!"org"])).mp (by decide)

/-! ## SQL Server -/

/-- the catalog views with their rows in the opposite order -/
def msInfoOf (db : List MsTab) : MsInfo where
  tables := (db.map fun t => ⟨t.id, t.schema, t.name⟩).reverse
  columns := (db.flatMap fun t => t.columns.map fun x => ⟨t.id, x.1, x.2⟩).reverse
  indexes := ((indexesOf db).map indexRow).reverse
  indexColumns := ((indexesOf db).flatMap indexColumnRows).reverse
  fks := ((fkeysOf db).map fun p =>
    ⟨p.2.id, p.1.id, p.2.name, p.2.onUpdate, p.2.onDelete, p.2.notTrusted⟩).reverse
  fkColumns := ((fkeysOf db).flatMap fkColumnRows).reverse
  checks := (db.flatMap fun t => t.checks.map fun x => ⟨t.id, x.1, x.2.1, x.2.2⟩).reverse

theorem msInfoOf_shows (db : List MsTab) : MsShows db (msInfoOf db) :=
  ⟨List.reverse_perm _, List.reverse_perm _, List.reverse_perm _, List.reverse_perm _, List.reverse_perm _,
    List.reverse_perm _, List.reverse_perm _⟩

/-- a table with a primary key of two columns and an index with included columns -/
def msUsers : MsTab where
  id := 100
  schema := b!"dbo"
  name := b!"users"
  columns := [(1, b!"id"), (2, b!"org"), (3, b!"email"), (4, b!"name")]
  indexes := [⟨1, some b!"users_pkey", b!"CLUSTERED", true, true, false, none, [((2, b!"org"), false), ((1, b!"id"), false)],
      [], []⟩,
    ⟨2, some b!"users_email", b!"NONCLUSTERED", true, false, false, some b!"([org]>(0))",
      [((3, b!"email"), true), ((2, b!"org"), false)], [(4, b!"name"), (1, b!"id")], []⟩]
  fkeys := []
  checks := [(b!"users_check", b!"([id]>(0))", false)]

/-- a table with a foreign key, without a clustered index -/
def msPosts : MsTab where
  id := 200
  schema := b!"blog"
  name := b!"posts"
  columns := [(1, b!"user_id"), (2, b!"user_org")]
  indexes := [⟨0, none, b!"HEAP", false, false, false, none, [], [], []⟩]
  fkeys := [⟨300, b!"posts_user", 100, [((2, b!"user_org"), (2, b!"org")), ((1, b!"user_id"), (1, b!"id"))],
    b!"NO_ACTION", b!"CASCADE", true⟩]
  checks := []

theorem msSample_valid : MsValid [msUsers, msPosts] where
  ids := by decide
  names := by decide
  columnIds := by
    intro t ht
    simp only [List.mem_cons, List.not_mem_nil, or_false] at ht
    rcases ht with rfl | rfl <;> decide
  indexIds := by
    intro t ht
    simp only [List.mem_cons, List.not_mem_nil, or_false] at ht
    rcases ht with rfl | rfl <;> decide
  indexNames := by
    intro t ht
    simp only [List.mem_cons, List.not_mem_nil, or_false] at ht
    rcases ht with rfl | rfl <;> decide
  keys := by
    intro t ht i hi hne
    simp only [List.mem_cons, List.not_mem_nil, or_false] at ht
    rcases ht with rfl | rfl
    · simp only [msUsers, List.mem_cons, List.not_mem_nil, or_false] at hi
      rcases hi with rfl | rfl <;> exact .inl (by simp)
    · simp only [msPosts, List.mem_cons, List.not_mem_nil, or_false] at hi
      rw [hi] at hne
      exact absurd rfl hne
  keyColumns := by
    intro t ht i hi
    simp only [List.mem_cons, List.not_mem_nil, or_false] at ht
    rcases ht with rfl | rfl
    · simp only [msUsers, List.mem_cons, List.not_mem_nil, or_false] at hi
      rcases hi with rfl | rfl <;> decide
    · simp only [msPosts, List.mem_cons, List.not_mem_nil, or_false] at hi
      rw [hi]; decide
  otherColumns := by
    intro t ht i hi
    simp only [List.mem_cons, List.not_mem_nil, or_false] at ht
    rcases ht with rfl | rfl
    · simp only [msUsers, List.mem_cons, List.not_mem_nil, or_false] at hi
      rcases hi with rfl | rfl <;> decide
    · simp only [msPosts, List.mem_cons, List.not_mem_nil, or_false] at hi
      rw [hi]; decide
  constraints := by
    intro t ht i hi hc
    simp only [List.mem_cons, List.not_mem_nil, or_false] at ht
    rcases ht with rfl | rfl
    · simp only [msUsers, List.mem_cons, List.not_mem_nil, or_false] at hi
      rcases hi with rfl | rfl
      · exact ⟨rfl, by simp⟩
      · rcases hc with h | h <;> cases h
    · simp only [msPosts, List.mem_cons, List.not_mem_nil, or_false] at hi
      rw [hi] at hc
      rcases hc with h | h <;> cases h
  fkIds := by decide
  fkNames := by
    intro t ht
    simp only [List.mem_cons, List.not_mem_nil, or_false] at ht
    rcases ht with rfl | rfl <;> decide
  fkCols := by
    intro t ht k hk
    simp only [List.mem_cons, List.not_mem_nil, or_false] at ht
    rcases ht with rfl | rfl
    · cases hk
    · simp only [msPosts, List.mem_cons, List.not_mem_nil, or_false] at hk
      rw [hk]
      exact ⟨by simp, msUsers, List.mem_cons_self .., rfl, by decide⟩
  checkNames := by
    intro t ht
    simp only [List.mem_cons, List.not_mem_nil, or_false] at ht
    rcases ht with rfl | rfl <;> decide

theorem msSample_plain : MsPlain Go.lowerC (fun _ => False) [msUsers, msPosts] := by
  intro t ht
  simp only [List.mem_cons, List.not_mem_nil, or_false] at ht
  rcases ht with rfl | rfl <;> simp only [Longer] <;> decide

theorem msSample_aligned : Aligned [msUsers, msPosts] := by
  intro t ht i hi
  simp only [List.mem_cons, List.not_mem_nil, or_false] at ht
  rcases ht with rfl | rfl
  · simp only [msUsers, List.mem_cons, List.not_mem_nil, or_false] at hi
    rcases hi with rfl | rfl <;> rfl
  · simp only [msPosts, List.mem_cons, List.not_mem_nil, or_false] at hi
    rw [hi]

example : msIndexes Go.lowerC {} (msInfoOf [msUsers, msPosts]) =
    [(⟨b!"dbo", b!"users", b!"users_email", b!"NONCLUSTERED", true, b!"([org]>(0))"⟩, [b!"email", b!"org"],
      [b!"id", b!"name"], [true, false])] := by rfl

example := (sqlserver_index_columns_partial (f := {}) oneOf_none oneOf_none (msInfoOf_shows _) msSample_valid
  msSample_plain msSample_aligned).2.2

example := ((sqlserver_keys_partial true (f := {}) oneOf_none oneOf_none (msInfoOf_shows _) msSample_valid
  msSample_plain msSample_aligned).1 ((b!"dbo", b!"users", some b!"users_pkey", true), [b!"org", b!"id"])).mp
  (by
    rw [show msKeys true Go.lowerC {} (msInfoOf [msUsers, msPosts]) =
      [((b!"dbo", b!"users", some b!"users_pkey", true), [b!"org", b!"id"])] from rfl]
    exact List.mem_cons_self ..)

example := ((sqlserver_foreign_partial (f := {}) oneOf_none oneOf_none (msInfoOf_shows _) msSample_valid
  msSample_plain).1 (⟨b!"blog", b!"posts", b!"posts_user", b!"dbo", b!"users", b!"NO_ACTION", b!"CASCADE", true⟩,
    [b!"user_org", b!"user_id"], [b!"org", b!"id"])).mp
  (by
    rw [show msForeign Go.lowerC {} (msInfoOf [msUsers, msPosts]) =
      [(⟨b!"blog", b!"posts", b!"posts_user", b!"dbo", b!"users", b!"NO_ACTION", b!"CASCADE", true⟩,
        [b!"user_org", b!"user_id"], [b!"org", b!"id"])] from rfl]
    exact List.mem_cons_self ..)

example := ((sqlserver_checks_partial (f := {}) oneOf_none oneOf_none (msInfoOf_shows _) msSample_valid
  msSample_plain).1 (b!"dbo", b!"users", b!"users_check", b!"([id]>(0))", false)).mp
  (by
    rw [show msChecks Go.lowerC {} (msInfoOf [msUsers, msPosts]) =
      [(b!"dbo", b!"users", b!"users_check", b!"([id]>(0))", false)] from rfl]
    exact List.mem_cons_self ..)

/-- An index of a partitioned table: the column that says in which partition a row is has the number 0
and is not marked as included, so it is reported as the first key column. -/
theorem sqlserver_partition_refuted : ∃ t : MsTab, ∃ i ∈ t.indexes, i.keys = [((1, b!"id"), true)] ∧
    i.partition = [(2, b!"created")] ∧ (t.columns.map (·.1)).Nodup ∧
    msIndexes Go.lowerC {} (msInfoOf [t]) =
      [(⟨t.schema, t.name, b!"ix", i.type, i.unique, []⟩, [b!"created", b!"id"], [], [false, true])] :=
  ⟨⟨100, b!"dbo", b!"events", [(1, b!"id"), (2, b!"created")],
    [⟨2, some b!"ix", b!"NONCLUSTERED", false, false, false, none, [((1, b!"id"), true)], [], [(2, b!"created")]⟩],
    [], []⟩, _, List.mem_cons_self .., rfl, rfl, by decide, rfl⟩

end Sqddl.Scripts
