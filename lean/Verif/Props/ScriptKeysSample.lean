import Verif.Props.ScriptKeysMysql
import Verif.Props.ScriptKeysSqlite
import Verif.Props.ScriptKeysPostgres
import Verif.Props.ScriptRowsSample

/-!
# C110: examples, and constraints that are reported wrongly
-/

namespace Sqddl.Scripts
open OwnSpec KeySpec

/-! ## MySQL -/

/-- information_schema with its rows in the opposite order -/
def myInfoOf (db : List Key) : MyInfo where
  tc := (db.map tcRow).reverse
  kcu := (db.flatMap kcuRows).reverse
  rc := (db.flatMap rcRows).reverse
  cc := (db.flatMap ccRows).reverse

theorem myInfoOf_shows (db : List Key) : MyShows db (myInfoOf db) :=
  ⟨List.reverse_perm _, List.reverse_perm _, List.reverse_perm _, List.reverse_perm _⟩

/-- two tables, a primary key and a foreign key of two columns, a check -/
def myKeySample : List Key :=
  [⟨b!"app", b!"users", b!"PRIMARY", .primary, [b!"org", b!"id"]⟩,
   ⟨b!"app", b!"users", b!"users_email", .unique, [b!"email"]⟩,
   ⟨b!"app", b!"posts", b!"posts_user", .foreign b!"app" b!"users" [b!"org", b!"id"] b!"NO ACTION" b!"CASCADE" b!"NONE",
     [b!"user_org", b!"user_id"]⟩,
   ⟨b!"app", b!"posts", b!"posts_chk_1", .check b!"(`id` > 0)", []⟩]

theorem myKeySample_valid : MyValid myKeySample where
  nodup := by decide
  cols := by
    intro k hk hc
    simp only [myKeySample, List.mem_cons, List.not_mem_nil, or_false] at hk
    rcases hk with rfl | rfl | rfl | rfl
    · exact (by decide)
    · exact (by decide)
    · exact (by decide)
    · exact absurd rfl (hc _)
  foreign := by
    intro k hk rs rt rc u d m e
    simp only [myKeySample, List.mem_cons, List.not_mem_nil, or_false] at hk
    rcases hk with rfl | rfl | rfl | rfl
    · cases e
    · cases e
    · cases e; rfl
    · cases e
  foreignNames := by decide

theorem myKeySample_apart : MyApart myKeySample := by
  intro k hk k' hk' _ _ h1 h2 h3
  revert h1 h2 h3
  exact (by decide : ∀ k ∈ myKeySample, ∀ k' ∈ myKeySample, k.schema = k'.schema → k.table = k'.table →
    k.name = k'.name → k = k') k hk k' hk'

theorem myKeySample_checks : MyChecksApart myKeySample := by
  intro k hk k' hk' _ _ h1 h2
  revert h1 h2
  exact (by decide : ∀ k ∈ myKeySample, ∀ k' ∈ myKeySample, k.schema = k'.schema → k.name = k'.name → k = k')
    k hk k' hk'

example : myKeys b!"PRIMARY KEY" {} (myInfoOf myKeySample) =
    [((b!"app", b!"users", b!"PRIMARY"), [b!"org", b!"id"])] := by decide

example := ((mysql_keys_partial true (f := {}) oneOf_none oneOf_none (myInfoOf_shows _) myKeySample_valid
  myKeySample_apart).1 ((b!"app", b!"users", b!"PRIMARY"), [b!"org", b!"id"])).mp (by decide)

example := ((mysql_foreign_partial (f := {}) oneOf_none oneOf_none (myInfoOf_shows _) myKeySample_valid
  myKeySample_apart).1 (⟨b!"app", b!"posts", b!"posts_user", some b!"app", some b!"users",
    some (b!"NO ACTION", b!"CASCADE", b!"NONE")⟩, [b!"user_org", b!"user_id"], [b!"org", b!"id"])).mp (by decide)

example := ((mysql_checks_partial (f := {}) oneOf_none oneOf_none (myInfoOf_shows _) myKeySample_valid
  myKeySample_checks).1 (b!"app", b!"posts", b!"posts_chk_1", b!"(`id` > 0)")).mp (by decide)

/-- A unique constraint and a foreign key of one table may have the same name; the columns of both are
reported for each. -/
theorem mysql_same_name_refuted : ∃ db : List Key, ∃ k ∈ db, k.kind = .unique ∧ MyValid db ∧
    myKeys b!"UNIQUE" {} (myInfoOf db) = [((k.schema, k.table, k.name), [b!"org", b!"org"])] ∧ k.cols = [b!"org"] := by
  refine ⟨[⟨b!"app", b!"users", b!"org_ref", .unique, [b!"org"]⟩,
    ⟨b!"app", b!"users", b!"org_ref", .foreign b!"app" b!"orgs" [b!"id"] b!"NO ACTION" b!"NO ACTION" b!"NONE",
      [b!"org"]⟩], _, List.mem_cons_self .., rfl, ⟨by decide, ?_, ?_, by decide⟩, by decide, rfl⟩
  · intro k hk _
    simp only [List.mem_cons, List.not_mem_nil, or_false] at hk
    rcases hk with rfl | rfl <;> exact (by decide)
  · intro k hk rs rt rc u d m e
    simp only [List.mem_cons, List.not_mem_nil, or_false] at hk
    rcases hk with rfl | rfl
    · cases e
    · cases e; rfl

/-- The type of a constraint is not compared when checks are read: a unique constraint of another table
that has the name of a check is reported as a check with the same expression. -/
theorem mysql_check_name_refuted : ∃ db : List Key, MyValid db ∧
    (∀ k ∈ db, k.table = b!"users" → k.kind = .unique) ∧
    (b!"app", b!"users", b!"positive", b!"(`n` > 0)") ∈ myChecks {} (myInfoOf db) := by
  refine ⟨[⟨b!"app", b!"items", b!"positive", .check b!"(`n` > 0)", []⟩,
    ⟨b!"app", b!"users", b!"positive", .unique, [b!"email"]⟩], ⟨by decide, ?_, ?_, by decide⟩, by decide, by decide⟩
  · intro k hk hc
    simp only [List.mem_cons, List.not_mem_nil, or_false] at hk
    rcases hk with rfl | rfl
    · exact absurd rfl (hc _)
    · exact (by decide)
  · intro k hk rs rt rc u d m e
    simp only [List.mem_cons, List.not_mem_nil, or_false] at hk
    rcases hk with rfl | rfl <;> cases e

/-! ## SQLite -/

/-- a table with a primary key of two columns, a unique constraint and two foreign keys, one of which
does not name the columns -/
def liteKeySample : LiteTable where
  name := b!"posts"
  sql := b!"CREATE TABLE posts (...)"
  primary := [b!"org", b!"id"]
  uniques := [(b!"sqlite_autoindex_posts_2", [b!"slug", b!"org"])]
  fkeys := [⟨0, [b!"org", b!"user"], b!"users", [b!"org", b!"id"], b!"NO ACTION", b!"CASCADE"⟩,
    ⟨1, [b!"org"], b!"orgs", [], b!"NO ACTION", b!"NO ACTION"⟩]

/-- the pragmas of the table, columns in the order of the table -/
def liteKeyInfo : LiteInfo where
  rows := [⟨b!"index", b!"posts", []⟩, ⟨b!"table", b!"posts", b!"CREATE TABLE posts (...)"⟩]
  info := fun _ => [(b!"id", 2), (b!"slug", 0), (b!"org", 1)]
  indexes := fun _ => [(b!"posts_slug", false, 'c'), (b!"sqlite_autoindex_posts_2", true, 'u'),
    (b!"sqlite_autoindex_posts_1", true, 'k')]
  columns := fun i => if i = b!"sqlite_autoindex_posts_2" then [(0, b!"slug"), (1, b!"org")] else []
  fkeys := fun _ => [⟨0, 0, b!"users", b!"org", some b!"org", b!"NO ACTION", b!"CASCADE"⟩,
    ⟨0, 1, b!"users", b!"user", some b!"id", b!"NO ACTION", b!"CASCADE"⟩,
    ⟨1, 0, b!"orgs", b!"org", none, b!"NO ACTION", b!"NO ACTION"⟩]

theorem liteKey_shows : LiteShows [liteKeySample] liteKeyInfo where
  rows := .refl _
  info := by
    intro t ht
    rw [List.mem_singleton.mp ht]
    exact .swap ..
  indexes := by
    intro t ht
    rw [List.mem_singleton.mp ht]
    exact .refl _
  columns := by
    intro t ht u hu
    rw [List.mem_singleton.mp ht] at hu
    rw [List.mem_singleton.mp hu]
    exact .refl _
  fkeys := by
    intro t ht
    rw [List.mem_singleton.mp ht]
    exact .refl _

theorem liteKey_valid : LiteValid [liteKeySample] where
  names := List.pairwise_singleton ..
  uniques := by
    intro t ht
    rw [List.mem_singleton.mp ht]
    decide
  fkeys := by
    intro t ht
    rw [List.mem_singleton.mp ht]
    refine ⟨by decide, ?_⟩
    intro k hk
    simp only [liteKeySample, List.mem_cons, List.not_mem_nil, or_false] at hk
    rcases hk with rfl | rfl
    · exact ⟨by decide, .inr rfl⟩
    · exact ⟨by decide, .inl rfl⟩

theorem liteKey_plain : LitePlain [liteKeySample] := by
  intro t ht
  rw [List.mem_singleton.mp ht]
  exact ⟨fun _ => .inl (by decide), by decide⟩

example : litePrimary {} liteKeyInfo = [(b!"posts", [b!"org", b!"id"])] := by decide

example := ((sqlite_primary_partial (f := {}) oneOf_none liteKey_shows liteKey_valid liteKey_plain).1
  (b!"posts", [b!"org", b!"id"])).mp (by decide)

example := ((sqlite_unique_partial (f := {}) oneOf_none liteKey_shows liteKey_valid liteKey_plain).1
  ((b!"posts", b!"sqlite_autoindex_posts_2"), [b!"slug", b!"org"])).mp (by decide)

example := ((sqlite_foreign_partial (f := {}) oneOf_none liteKey_shows liteKey_valid liteKey_plain).1
  (⟨b!"posts", 0, b!"users", b!"NO ACTION", b!"CASCADE"⟩, [b!"org", b!"user"], [b!"org", b!"id"])).mp (by decide)

/-- The table whose name was written in single quotes is reported, its primary key is not. -/
theorem sqlite_quoted_key_refuted : ∃ (c : LiteTables) (i : LiteInfo), c.rows = i.rows ∧
    b!"users" ∈ liteTables false {} c ∧ i.info b!"users" = [(b!"id", 1)] ∧ litePrimary {} i = [] :=
  ⟨⟨[⟨b!"table", b!"users", b!"CREATE TABLE 'users' (id INT PRIMARY KEY)"⟩],
    [(b!"main", b!"users", b!"table")], fun _ => [b!"id"]⟩,
   ⟨[⟨b!"table", b!"users", b!"CREATE TABLE 'users' (id INT PRIMARY KEY)"⟩], fun _ => [(b!"id", 1)], fun _ => [],
    fun _ => [], fun _ => []⟩, rfl, by decide, rfl, by decide⟩

/-! ## Postgres -/

/-- two tables; the columns of the keys are not in the order of the table -/
def pgKeySample : PgInfo where
  namespaces := [⟨11, b!"pg_catalog"⟩, ⟨20, b!"app"⟩]
  classes := [⟨30, 20, b!"users", 'r'⟩, ⟨31, 20, b!"posts", 'r'⟩]
  attributes := [⟨30, 1, b!"id"⟩, ⟨30, 2, b!"org"⟩, ⟨31, 1, b!"user_id"⟩, ⟨31, 2, b!"user_org"⟩, ⟨31, -1, b!"ctid"⟩]
  keys := [⟨b!"users_pkey", 30, 'p', [2, 1], 0, [], ' ', ' ', ' ', false, false, true⟩,
    ⟨b!"posts_user_fkey", 31, 'f', [2, 1], 30, [2, 1], 'a', 'c', 's', true, false, true⟩]

theorem pgKeySample_valid : PgValid pgKeySample where
  schemaIds := by decide
  schemaNames := by decide
  tableIds := by decide
  tableNames := by decide
  columnIds := by decide
  keyNames := by decide
  cols := by
    intro k hk _
    simp only [pgKeySample, List.mem_cons, List.not_mem_nil, or_false] at hk
    rcases hk with rfl | rfl
    · exact ⟨by decide, [b!"org", b!"id"], by simp [Named, pgKeySample]⟩
    · exact ⟨by decide, [b!"user_org", b!"user_id"], by simp [Named, pgKeySample]⟩
  refs := by
    intro k hk hf
    simp only [pgKeySample, List.mem_cons, List.not_mem_nil, or_false] at hk
    rcases hk with rfl | rfl
    · exact absurd hf (by decide)
    · exact ⟨rfl, ⟨[b!"org", b!"id"], by simp [Named, pgKeySample]⟩, by decide, by decide, by decide⟩

theorem pgKeySample_plain : PgPlain pgKeySample := pgSample_plain

example : pgKeys 'p' {} pgKeySample =
    [((b!"app", b!"users", b!"users_pkey", false, false), [b!"org", b!"id"])] := by rfl

example := ((pg_keys_partial (.inl rfl) (f := {}) oneOf_none oneOf_none pgKeySample_valid pgKeySample_plain).1
  ((b!"app", b!"users", b!"users_pkey", false, false), [b!"org", b!"id"])).mp (by decide)

example := ((pg_foreign_partial (f := {}) oneOf_none oneOf_none pgKeySample_valid pgKeySample_plain).1
  (⟨b!"app", b!"posts", b!"posts_user_fkey", b!"app", b!"users", some b!"NO ACTION", some b!"CASCADE", [], true, false,
    false⟩, [b!"user_org", b!"user_id"], [b!"org", b!"id"])).mp (by decide +kernel)

end Sqddl.Scripts
