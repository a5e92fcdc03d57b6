import Verif.Props.SqliteKeeps
import Verif.Lemmas.DdlDecide

/-!
# SQLite migrations: a sample, and rows that are lost (C42, C66)
-/

namespace LiteText
open SqlSpec Sqddl DdlText

instance (t : Table) : Decidable (Writable t) :=
  decidable_of_iff (TableText .sqlite [] [] t ∧ t.tableSchema = [] ∧
      PlainName .sqlite (t.tableName ++ b!"_new") ∧
      (∀ c ∈ CatalogSpec.liveColumns t, ColumnOk .sqlite [] true c) ∧
      (∀ x ∈ t.indexes, x.sql = [] ∧ IndexOk .sqlite false x) ∧ t.triggers = [])
    ⟨fun ⟨a, b, c, d, e, f⟩ => ⟨a, b, c, d, e, f⟩, fun ⟨a, b, c, d, e, f⟩ => ⟨a, b, c, d, e, f⟩⟩

instance (t : Table) : Decidable (Readable t) :=
  decidable_of_iff (PlainName .sqlite t.tableName ∧
      (∀ c ∈ t.columns, PlainName .sqlite c.columnName) ∧
      (∀ x ∈ t.indexes, PlainName .sqlite x.indexName) ∧ t.triggers = [])
    ⟨fun ⟨a, b, c, d⟩ => ⟨a, b, c, d⟩, fun ⟨a, b, c, d⟩ => ⟨a, b, c, d⟩⟩

instance (src dest : Table) (n : Str) : Decidable (Copied src dest n) := by
  unfold Copied; infer_instance

end LiteText

namespace Sqddl.Sqlite.Samples
open SqlSpec Sqddl LiteText LiteSpec CatalogSpec
open DdlText hiding Stmt readStmt runScript

def col (t n ty : Str) (nn : Bool := false) : Column :=
  { tableName := t, columnName := n, columnType := ty, isNotNull := nn }

def idCol (t : Str) : Column := { col t b!"id" b!"INTEGER" with isPrimaryKey := true }

def pk (t : Str) (cs : List Str) : Constraint :=
  { tableName := t, constraintName := t ++ b!"_pkey", constraintType := b!"PRIMARY KEY",
    columns := cs }

def fkey (t c r : Str) : Constraint :=
  { tableName := t, constraintType := b!"FOREIGN KEY", columns := [c], referencesTable := r,
    referencesColumns := [b!"id"], deleteRule := b!"CASCADE" }

def idx (t n c : Str) : Index :=
  { tableName := t, indexName := n, columns := [c], descending := [false] }

/-! ## A migration that keeps the rows -/

/-- Users and their posts, and a table that is no longer needed. -/
def s1 : Schema :=
  { tables := [
    { tableName := b!"users", columns := [idCol b!"users", col b!"users" b!"name" b!"TEXT",
        col b!"users" b!"fax" b!"TEXT"],
      constraints := [pk b!"users" [b!"id"]],
      indexes := [idx b!"users" b!"users_fax" b!"fax"] },
    { tableName := b!"posts", columns := [idCol b!"posts", col b!"posts" b!"author" b!"INT",
        col b!"posts" b!"title" b!"TEXT"],
      constraints := [pk b!"posts" [b!"id"], fkey b!"posts" b!"author" b!"users"] },
    { tableName := b!"old", columns := [col b!"old" b!"x" b!"INT"] }] }

/-- Fax numbers are gone and birthdays are new, the author of a post is required, and there is a table
for tags. -/
def d1 : Schema :=
  { tables := [
    { tableName := b!"users", columns := [idCol b!"users", col b!"users" b!"name" b!"TEXT",
        col b!"users" b!"born" b!"DATE"],
      constraints := [pk b!"users" [b!"id"]] },
    { tableName := b!"posts", columns := [idCol b!"posts", col b!"posts" b!"author" b!"INT" true,
        col b!"posts" b!"title" b!"TEXT"],
      constraints := [pk b!"posts" [b!"id"], fkey b!"posts" b!"author" b!"users"],
      indexes := [idx b!"posts" b!"posts_title" b!"title"] },
    { tableName := b!"tags", columns := [col b!"tags" b!"tag" b!"TEXT" true,
        col b!"tags" b!"user" b!"INT"],
      constraints := [fkey b!"tags" b!"user" b!"users"] }] }

def cat (s : Schema) : Catalog := { dialect := b!"sqlite", schemas := [s] }

theorem s1_ok : SqliteOk (cat s1) s1 := ⟨by decide +kernel, rfl⟩
theorem d1_ok : SqliteOk (cat d1) d1 := ⟨by decide +kernel, rfl⟩
theorem clear1 : Clear s1 d1 where
  writable := by decide +kernel
  readable := by decide +kernel
  common := fun p hp => ⟨b!"id", (by decide +kernel :
    ∀ p ∈ sqlitePairs s1 d1, Copied p.1 p.2 b!"id") p hp⟩
  srcNames := by decide +kernel
  destNames := by decide +kernel

/-- The file. -/
def text1 : Str := b!"PRAGMA legacy_alter_table = ON;

DROP TABLE old;

CREATE TABLE tags (
    tag TEXT NOT NULL
    ,user INT

    ,CONSTRAINT tags_user_fkey FOREIGN KEY (user) REFERENCES users (id) ON DELETE CASCADE
);

DROP INDEX users_fax;

ALTER TABLE users DROP COLUMN fax;

ALTER TABLE users ADD COLUMN born DATE;

CREATE TABLE posts_new (
    id INTEGER PRIMARY KEY
    ,author INT NOT NULL
    ,title TEXT

    ,CONSTRAINT posts_author_fkey FOREIGN KEY (author) REFERENCES users (id) ON DELETE CASCADE
);
INSERT INTO posts_new
    (id, author, title)
SELECT
    id, author, title
FROM
    posts
;
DROP TABLE posts;
ALTER TABLE posts_new RENAME TO posts;

CREATE INDEX posts_title ON posts (title);

PRAGMA legacy_alter_table = OFF;
"

theorem migration1 : migration b!"01" (cat s1) (cat d1) true = some [(b!"01.sql", text1)] := by
  decide +kernel

/-- The statements of the file. -/
def sts1 : List LiteText.Stmt := planOf true (sqliteEvents (cat s1) (cat d1) true)

theorem read1 : LiteText.runScript (keywords .sqlite) [] text1 = some sts1 := by decide +kernel

theorem doomed1 : ∀ n, Doomed sts1 n → n ∈ [b!"old", b!"posts", b!"posts_new"] := by
  have e : ∀ st ∈ sts1, ∀ m : Name, (st = .dropTable m → fold m.2 ∈ [b!"old", b!"posts", b!"posts_new"]) ∧
      ∀ k, st = .renameTable m k → fold m.2 ∈ [b!"old", b!"posts", b!"posts_new"] := by
    have : sts1.all (fun st => match st with
        | .dropTable m => [b!"old", b!"posts", b!"posts_new"].contains (fold m.2)
        | .renameTable m _ => [b!"old", b!"posts", b!"posts_new"].contains (fold m.2)
        | _ => true) = true := by decide +kernel
    intro st hst m
    have := List.all_eq_true.1 this st hst
    refine ⟨fun e => ?_, fun k e => ?_⟩ <;> subst e <;> simpa using this
  rintro n ⟨m, rfl, h | ⟨k, h⟩⟩
  · exact (e _ h m).1 rfl
  · exact (e _ h m).2 k rfl

/-- Values are numbers, 0 is NULL, and every statement is accepted. -/
def world : World Nat where
  null := 0
  store _ v := v
  absent _ _ _ := 0
  scan rs := rs
  scan_perm _ := .refl _
  accepts _ _ := true

/-- The table of a database. -/
def tbl (t : Table) (rows : List (List (Str × Nat))) : Tbl Nat :=
  ⟨colsOf (itemsOf t), consOf (itemsOf t), rows.map fun r n => (r.lookup n).getD 0⟩

/-- A user with two posts, another table, and one that the catalog does not have. -/
def db1 : Db Nat := fun n =>
  [(b!"users", tbl (s1.tables[0]'(by decide)) [[(b!"id", 7), (b!"name", 70), (b!"fax", 700)]]),
   (b!"posts", tbl (s1.tables[1]'(by decide)) [[(b!"id", 1), (b!"author", 7), (b!"title", 10)],
      [(b!"id", 2), (b!"author", 7), (b!"title", 20)]]),
   (b!"old", tbl (s1.tables[2]'(by decide)) []),
   (b!"unknown", tbl (s1.tables[2]'(by decide)) [[(b!"x", 5)]])].lookup n

theorem described1 : ∀ x ∈ s1.tables, x.ignore = false →
    ∃ T, db1 (fold x.tableName) = some T ∧ Described T x := by
  intro x hx _
  simp only [s1, List.mem_cons, List.not_mem_nil, or_false] at hx
  rcases hx with rfl | rfl | rfl
  · exact ⟨tbl (s1.tables[0]'(by decide)) [[(b!"id", 7), (b!"name", 70), (b!"fax", 700)]], rfl,
      by decide +kernel, by decide +kernel⟩
  · exact ⟨tbl (s1.tables[1]'(by decide)) [[(b!"id", 1), (b!"author", 7), (b!"title", 10)],
      [(b!"id", 2), (b!"author", 7), (b!"title", 20)]], rfl, by decide +kernel, by decide +kernel⟩
  · exact ⟨tbl (s1.tables[2]'(by decide)) [], rfl, by decide +kernel, by decide +kernel⟩

/-- The tables of the sample database reference users only. -/
theorem db1_fkeys : ∀ u U f, db1 u = some U → f ∈ U.fkeys → key f.2.table = b!"users" := by
  intro u U f hu hf
  have hm : ∀ (xs : List (Str × Tbl Nat)), xs.lookup u = some U → ∃ n, (n, U) ∈ xs := by
    intro xs
    induction xs with
    | nil => intro h; cases h
    | cons x xs ih =>
      intro h
      obtain ⟨k, T⟩ := x
      rw [List.lookup_cons] at h
      split at h
      · cases h; exact ⟨k, by simp⟩
      · obtain ⟨n, hn⟩ := ih h
        exact ⟨n, by simp [hn]⟩
  obtain ⟨n, hn⟩ := hm _ hu
  simp only [List.mem_cons, Prod.mk.injEq, List.not_mem_nil, or_false] at hn
  rcases hn with ⟨-, rfl⟩ | ⟨-, rfl⟩ | ⟨-, rfl⟩ | ⟨-, rfl⟩
  · revert f; decide +kernel
  · revert f; decide +kernel
  · revert f; decide +kernel
  · revert f; decide +kernel

instance (t : Table) (n : Str) : Decidable (References t n) :=
  decidable_of_iff (((∃ c ∈ liveConstraints t, c.constraintType = b!"FOREIGN KEY" ∧
      fold c.referencesTable = n) ∨
    ∃ c ∈ liveColumns t, (refOf c).any (fun r => fold r.table.2 == n) = true)) (by
      unfold References
      simp [Option.any_eq_true])

/-- `sqlite_keeps_rows_partial` on the sample, whether or not foreign keys are enforced. -/
example (fk : Bool) (w : World Nat) (db' : Db Nat) (h : run w fk db1 sts1 = some db') :
    (∃ T T', db1 b!"posts" = some T ∧ T.rows.length = 2 ∧ db' b!"posts" = some T' ∧
      Kept w T T' (fun n => n ∈ [b!"id", b!"author", b!"title"])) ∧
    (∃ T T', db1 b!"users" = some T ∧ T.rows.length = 1 ∧ db' b!"users" = some T' ∧
      Kept w T T' (fun n => n ∈ [b!"id", b!"name"])) ∧ db' b!"unknown" = db1 b!"unknown" := by
  obtain ⟨sts, e, hk⟩ := sqlite_keeps_rows_partial (V := Nat) s1_ok d1_ok true clear1 b!"01" _
    migration1
  have e : some sts1 = some sts := read1.symm.trans (by
    rw [show [(b!"01.sql", text1)].flatMap (fun f : Files.File => f.2) = text1 from
      List.append_nil _] at e
    exact e)
  cases e
  obtain ⟨h1, h2⟩ := hk w fk db1 db' described1 (fun _ => ⟨fun u U f hu hf hd => by
      have h1 := db1_fkeys u U f hu hf
      have h2 := doomed1 _ hd
      rw [h1] at h2
      exact absurd h2 (by decide), fun t ht n hn href => by
      have := doomed1 n hn
      revert t
      rw [show (∀ t ∈ sqliteTables d1, References t n → False) ↔
        ∀ t ∈ sqliteTables d1, ¬ References t n from Iff.rfl]
      simp only [List.mem_cons, List.not_mem_nil, or_false] at this
      rcases this with rfl | rfl | rfl <;> decide +kernel⟩) h
  have hp : sqlitePairs s1 d1 = [(s1.tables[0]'(by decide), d1.tables[0]'(by decide)),
    (s1.tables[1]'(by decide), d1.tables[1]'(by decide))] := by decide +kernel
  refine ⟨?_, ?_, ?_⟩
  · obtain ⟨T', e, f, rs, k1, k2, k3⟩ := h1 (s1.tables[1]'(by decide), d1.tables[1]'(by decide))
      (by rw [hp]; simp) _
      (rfl : db1 b!"posts" = some (tbl (s1.tables[1]'(by decide))
        [[(b!"id", 1), (b!"author", 7), (b!"title", 10)],
         [(b!"id", 2), (b!"author", 7), (b!"title", 20)]]))
    refine ⟨_, T', rfl, rfl, e, f, rs, k1, k2, fun n hn => k3 n ?_⟩
    simp only [List.mem_cons, List.not_mem_nil, or_false] at hn
    rcases hn with rfl | rfl | rfl <;> unfold Common <;> decide +kernel
  · obtain ⟨T', e, f, rs, k1, k2, k3⟩ := h1 (s1.tables[0]'(by decide), d1.tables[0]'(by decide))
      (by rw [hp]; simp) _
      (rfl : db1 b!"users" = some (tbl (s1.tables[0]'(by decide))
        [[(b!"id", 7), (b!"name", 70), (b!"fax", 700)]]))
    refine ⟨_, T', rfl, rfl, e, f, rs, k1, k2, fun n hn => k3 n ?_⟩
    simp only [List.mem_cons, List.not_mem_nil, or_false] at hn
    rcases hn with rfl | rfl <;> unfold Common <;> decide +kernel
  · exact h2 b!"unknown" _ rfl (by rw [hp]; decide +kernel) (fun _ => by decide +kernel)

/-- The statements succeed. -/
example : (run world false db1 sts1).isSome = true := by decide +kernel

/-! ## Rows that are lost -/

theorem run_exec {w : World Nat} {fk : Bool} {db d : Db Nat} {st : LiteText.Stmt}
    {sts : List LiteText.Stmt} (h : exec w fk db st = some d) :
    run w fk db (st :: sts) = run w fk d sts := by
  rw [run, h]; rfl

theorem exec_world (fk : Bool) (db : Db Nat) (st : LiteText.Stmt) :
    exec world fk db st = effect world fk db st := if_pos rfl

/-- DROP TABLE, and the tables have no foreign keys but such with ON DELETE CASCADE. -/
theorem drop_cascades {db : Db Nat} {n : Name} {T : Tbl Nat} (hT : db (key n) = some T)
    (hc : ∀ u U f, db u = some U → f ∈ U.fkeys → f.2.onDelete = .cascade) :
    exec world true db (.dropTable n) = some ((deleteAll world db (key n)).put (key n) none) := by
  rw [exec_world, effect, hT]
  dsimp only
  rw [if_pos rfl, if_neg]
  rintro ⟨u, U, r, cols, hu, -, h | ⟨h, -⟩⟩ <;>
  · obtain ⟨ref, _, hf, hr, -⟩ := h
    have := hc u U _ hu hf
    rw [hr] at this
    cases this

/-- RENAME TO and the pragma leave the rows as they are. -/
theorem rename_rows {db : Db Nat} {n : Name} {m : Str} {T : Tbl Nat} (hT : db (key n) = some T)
    (hm : db (fold m) = none) (a b : Str) :
    ∃ db', run world true db [.renameTable n m, .pragma a b] = some db' ∧
      (db' (fold m)).map (·.rows) = some T.rows ∧
      ∀ u, u ≠ key n → u ≠ fold m → (db' u).map (·.rows) = (db u).map (·.rows) := by
  have h : exec world true db (.renameTable n m) = some fun u =>
      ((db.put (key n) none).put (fold m) (some T) u).map (Tbl.rename (key n) m) := by
    rw [exec_world, effect, hT, hm]
    rfl
  refine ⟨_, by rw [run_exec h]; rfl, by rw [put_self]; rfl, fun u h1 h2 => ?_⟩
  rw [put_ne _ _ h2, put_ne _ _ h1]
  cases db u <;> rfl

theorem deleteAll_all {db : Db Nat} {t u : Str} {U : Tbl Nat} (hu : db u = some U)
    (h : ∀ r ∈ U.rows, Gone world db t u r) :
    deleteAll world db t u = some { U with rows := [] } := by
  unfold deleteAll
  rw [hu]
  simp only [Option.map_some, Option.some.injEq]
  rw [List.filter_eq_nil_iff.2]
  · rfl
  · intro r hr
    simpa using h r hr

def users2 (nn : Bool) : Table :=
  { tableName := b!"users", columns := [idCol b!"users", col b!"users" b!"name" b!"TEXT" nn],
    constraints := [pk b!"users" [b!"id"]] }

def posts2 : Table :=
  { tableName := b!"posts", columns := [idCol b!"posts", col b!"posts" b!"author" b!"INT"],
    constraints := [pk b!"posts" [b!"id"], fkey b!"posts" b!"author" b!"users"] }

def s2 (nn : Bool) : Schema := { tables := [users2 nn, posts2] }

/-- A user who has written a post. -/
def db2 : Db Nat := fun n =>
  [(b!"users", tbl (users2 false) [[(b!"id", 7), (b!"name", 70)]]),
   (b!"posts", tbl posts2 [[(b!"id", 1), (b!"author", 7)]])].lookup n

def sts2 : List LiteText.Stmt := planOf true (sqliteEvents (cat (s2 false)) (cat (s2 true)) true)

/-- The database before DROP TABLE. -/
def mid2 : Db Nat :=
  (db2.put b!"users_new" (some (tbl (users2 true) []))).put b!"users_new"
    (some ⟨colsOf (itemsOf (users2 true)), consOf (itemsOf (users2 true)),
      [] ++ (tbl (users2 false) [[(b!"id", 7), (b!"name", 70)]]).rows.map
        (newRow world (colsOf (itemsOf (users2 true))) [b!"id", b!"name"] [b!"id", b!"name"])⟩)

theorem mid2_cases {u : Str} {U : Tbl Nat} (h : mid2 u = some U) :
    U.fkeys = [] ∨ u = b!"posts" ∧ U = tbl posts2 [[(b!"id", 1), (b!"author", 7)]] := by
  by_cases e : u = b!"users_new"
  · subst e
    rw [mid2, put_self] at h
    cases h
    exact Or.inl (by decide +kernel)
  · rw [mid2, put_ne _ _ e, put_ne _ _ e] at h
    unfold db2 at h
    rw [List.lookup_cons] at h
    split at h
    · cases h; exact Or.inl (by decide +kernel)
    · rw [List.lookup_cons] at h
      split at h
      · rename_i e
        cases h; exact Or.inr ⟨by simpa using e, rfl⟩
      · cases h

/-- C42: foreign keys are enforced (drivers/ddlsqlite3 turns them on), and the name of users becomes
NOT NULL.  The post is deleted: `DROP TABLE users` deletes the users first, and the foreign key is ON
DELETE CASCADE.  No difference between the catalogs is about posts. -/
theorem rebuild_cascade_refuted :
    ∃ (src dest : Catalog) (s d : Schema) (files : List Files.File) (sts : List LiteText.Stmt),
      SqliteOk src s ∧ SqliteOk dest d ∧ Clear s d ∧
      migration b!"01" src dest true = some files ∧
      LiteText.runScript (keywords .sqlite) [] (files.flatMap (·.2)) = some sts ∧
      ∃ (w : World Nat) (db db' : Db Nat),
        (∀ x ∈ s.tables, ∃ T, db (fold x.tableName) = some T ∧ Described T x) ∧
        run w true db sts = some db' ∧ posts2 ∈ s.tables ∧ posts2 ∈ d.tables ∧
        ∃ T T', db b!"posts" = some T ∧ T.rows.length = 1 ∧ db' b!"posts" = some T' ∧
          T'.rows = [] := by
  have hm : ∃ f, migration b!"01" (cat (s2 false)) (cat (s2 true)) true = some [f] ∧
      LiteText.runScript (keywords .sqlite) [] f.2 = some sts2 := by
    have h : (migration b!"01" (cat (s2 false)) (cat (s2 true)) true).any (fun fs =>
        fs.length == 1 && fs.all fun f =>
          LiteText.runScript (keywords .sqlite) [] f.2 == some sts2) = true := by decide +kernel
    cases e : migration b!"01" (cat (s2 false)) (cat (s2 true)) true with
    | none => rw [e] at h; cases h
    | some fs =>
      rw [e] at h
      simp only [Option.any_some, Bool.and_eq_true, beq_iff_eq, List.all_eq_true] at h
      obtain ⟨f, rfl⟩ := List.length_eq_one_iff.1 h.1
      exact ⟨f, rfl, h.2 f (by simp)⟩
  obtain ⟨f, hm, hr⟩ := hm
  refine ⟨cat (s2 false), cat (s2 true), s2 false, s2 true, [f], sts2,
    ⟨by decide +kernel, rfl⟩, ⟨by decide +kernel, rfl⟩,
    ⟨by decide +kernel, by decide +kernel, fun p hp => ⟨b!"id", (by decide +kernel :
      ∀ p ∈ sqlitePairs (s2 false) (s2 true), Copied p.1 p.2 b!"id") p hp⟩,
      by decide +kernel, by decide +kernel⟩, hm, by simpa using hr, world, db2, ?_⟩
  have e1 : sts2 = sts2.take 3 ++ (.dropTable (nm b!"users") ::
      [.renameTable (nm b!"users_new") b!"users", .pragma b!"legacy_alter_table" b!"off"]) := by
    decide +kernel
  have e2 : run world true db2 (sts2.take 3) = some mid2 := rfl
  have hdrop := drop_cascades (db := mid2) (n := nm b!"users") (T := tbl (users2 false)
    [[(b!"id", 7), (b!"name", 70)]]) rfl (by
      intro u U f hu hf
      rcases mid2_cases hu with h | ⟨-, rfl⟩
      · rw [h] at hf; cases hf
      · revert f; decide +kernel)
  have hlost : deleteAll world mid2 (key (nm b!"users")) b!"posts" = some (tbl posts2 []) := by
    refine deleteAll_all (U := tbl posts2 [[(b!"id", 1), (b!"author", 7)]]) rfl ?_
    intro r hr
    refine Gone.cascade _ _ _ [b!"author"] ⟨(some [], b!"users"), [b!"id"], none, .noAction,
      .cascade⟩ (fun n => ([(b!"id", 7), (b!"name", 70)].lookup n).getD 0) rfl hr
      (by decide +kernel) rfl (Gone.own (tbl (users2 false) [[(b!"id", 7), (b!"name", 70)]]) _ rfl
        (by simp [tbl])) ?_
    have : r = fun n => ([(b!"id", 1), (b!"author", 7)].lookup n).getD 0 := by
      simpa [tbl] using hr
    subst this
    unfold Refers
    decide +kernel
  obtain ⟨T, hT⟩ : ∃ T, ((deleteAll world mid2 (key (nm b!"users"))).put (key (nm b!"users")) none)
      (key (nm b!"users_new")) = some T := by
    rw [put_ne _ _ (by decide)]
    exact ⟨_, rfl⟩
  obtain ⟨db', h1, -, h2⟩ := rename_rows hT (put_self _ _ _ :
    ((deleteAll world mid2 (key (nm b!"users"))).put (key (nm b!"users")) none) (fold b!"users") = none)
    b!"legacy_alter_table" b!"off"
  have h3 := h2 b!"posts" (by decide) (by decide)
  rw [put_ne _ _ (by decide), hlost] at h3
  refine ⟨db', ?_, ?_, by decide, by decide, tbl posts2 [[(b!"id", 1), (b!"author", 7)]], ?_⟩
  rotate_left
  · rw [e1, run_append, e2, Option.bind_some, run_exec hdrop]
    exact h1
  · cases e : db' b!"posts" with
    | none => rw [e] at h3; cases h3
    | some T' => rw [e] at h3; exact ⟨T', rfl, rfl, rfl, Option.some.inj h3⟩
  · intro x hx
    simp only [s2, List.mem_cons, List.not_mem_nil, or_false] at hx
    rcases hx with rfl | rfl
    · exact ⟨tbl (users2 false) [[(b!"id", 7), (b!"name", 70)]], rfl, by decide +kernel,
        by decide +kernel⟩
    · exact ⟨tbl posts2 [[(b!"id", 1), (b!"author", 7)]], rfl, by decide +kernel, by decide +kernel⟩

/-- Categories that are parts of other categories. -/
def tree (nn : Bool) : Table :=
  { tableName := b!"tree", columns := [idCol b!"tree", col b!"tree" b!"parent" b!"INT",
      col b!"tree" b!"name" b!"TEXT" nn],
    constraints := [pk b!"tree" [b!"id"], fkey b!"tree" b!"parent" b!"tree"] }

def s3 (nn : Bool) : Schema := { tables := [tree nn] }

/-- A category and a part of it. -/
def rows3 : List (List (Str × Nat)) :=
  [[(b!"id", 1), (b!"parent", 0), (b!"name", 10)], [(b!"id", 2), (b!"parent", 1), (b!"name", 20)]]

def db3 : Db Nat := fun n => [(b!"tree", tbl (tree false) rows3)].lookup n

def sts3 : List LiteText.Stmt := planOf true (sqliteEvents (cat (s3 false)) (cat (s3 true)) true)

/-- The rebuilt table before DROP TABLE. -/
def tree3 : Tbl Nat := ⟨colsOf (itemsOf (nameTable (tree true))),
  consOf (itemsOf (nameTable (tree true))),
  [] ++ (tbl (tree false) rows3).rows.map (newRow world (colsOf (itemsOf (nameTable (tree true))))
    [b!"id", b!"parent", b!"name"] [b!"id", b!"parent", b!"name"])⟩

def mid3 : Db Nat :=
  (db3.put b!"tree_new" (some (tbl (nameTable (tree true)) []))).put b!"tree_new" (some tree3)

theorem mid3_cases {u : Str} {U : Tbl Nat} (h : mid3 u = some U) :
    U = tree3 ∨ U = tbl (tree false) rows3 := by
  by_cases e : u = b!"tree_new"
  · subst e
    rw [mid3, put_self] at h
    cases h
    exact Or.inl rfl
  · rw [mid3, put_ne _ _ e, put_ne _ _ e] at h
    unfold db3 at h
    rw [List.lookup_cons] at h
    split at h
    · cases h; exact Or.inr rfl
    · cases h

/-- C42: also the rows of the table that is rebuilt are lost if it references itself: the copy
references the rows that are deleted. -/
theorem rebuild_self_cascade_refuted :
    ∃ (src dest : Catalog) (s d : Schema) (files : List Files.File) (sts : List LiteText.Stmt),
      SqliteOk src s ∧ SqliteOk dest d ∧ Clear s d ∧
      migration b!"01" src dest true = some files ∧
      LiteText.runScript (keywords .sqlite) [] (files.flatMap (·.2)) = some sts ∧
      ∃ (w : World Nat) (db db' : Db Nat),
        (∀ x ∈ s.tables, ∃ T, db (fold x.tableName) = some T ∧ Described T x) ∧
        run w true db sts = some db' ∧
        ∃ T T', db b!"tree" = some T ∧ T.rows.length = 2 ∧ db' b!"tree" = some T' ∧
          T'.rows.length ≤ 1 := by
  have hm : ∃ f, migration b!"01" (cat (s3 false)) (cat (s3 true)) true = some [f] ∧
      LiteText.runScript (keywords .sqlite) [] f.2 = some sts3 := by
    have h : (migration b!"01" (cat (s3 false)) (cat (s3 true)) true).any (fun fs =>
        fs.length == 1 && fs.all fun f =>
          LiteText.runScript (keywords .sqlite) [] f.2 == some sts3) = true := by decide +kernel
    cases e : migration b!"01" (cat (s3 false)) (cat (s3 true)) true with
    | none => rw [e] at h; cases h
    | some fs =>
      rw [e] at h
      simp only [Option.any_some, Bool.and_eq_true, beq_iff_eq, List.all_eq_true] at h
      obtain ⟨f, rfl⟩ := List.length_eq_one_iff.1 h.1
      exact ⟨f, rfl, h.2 f (by simp)⟩
  obtain ⟨f, hm, hr⟩ := hm
  refine ⟨cat (s3 false), cat (s3 true), s3 false, s3 true, [f], sts3,
    ⟨by decide +kernel, rfl⟩, ⟨by decide +kernel, rfl⟩,
    ⟨by decide +kernel, by decide +kernel, fun p hp => ⟨b!"id", (by decide +kernel :
      ∀ p ∈ sqlitePairs (s3 false) (s3 true), Copied p.1 p.2 b!"id") p hp⟩,
      by decide +kernel, by decide +kernel⟩, hm, by simpa using hr, world, db3, ?_⟩
  have e1 : sts3 = sts3.take 3 ++ (.dropTable (nm b!"tree") ::
      [.renameTable (nm b!"tree_new") b!"tree", .pragma b!"legacy_alter_table" b!"off"]) := by
    decide +kernel
  have e2 : run world true db3 (sts3.take 3) = some mid3 := rfl
  have hdrop := drop_cascades (db := mid3) (n := nm b!"tree") (T := tbl (tree false) rows3) rfl (by
      intro u U f hu hf
      rcases mid3_cases hu with rfl | rfl
      · revert f; decide +kernel
      · revert f; decide +kernel)
  obtain ⟨a, b, hab, hgone⟩ : ∃ a b : Row Nat, tree3.rows = [a, b] ∧
      Gone world mid3 (key (nm b!"tree")) b!"tree_new" b := by
    refine ⟨_, _, rfl, ?_⟩
    refine Gone.cascade _ tree3 _ [b!"parent"] ⟨(some [], b!"tree"), [b!"id"], none, .noAction,
      .cascade⟩ (fun n => ([(b!"id", 1), (b!"parent", 0), (b!"name", 10)].lookup n).getD 0) rfl
      (by exact List.mem_cons_of_mem _ (List.mem_singleton.2 rfl)) (by decide +kernel) rfl
      (Gone.own (tbl (tree false) rows3) _ rfl (by simp [tbl, rows3])) ?_
    unfold Refers
    decide +kernel
  obtain ⟨T, hT, hlen⟩ : ∃ T, ((deleteAll world mid3 (key (nm b!"tree"))).put (key (nm b!"tree")) none)
      (key (nm b!"tree_new")) = some T ∧ T.rows.length ≤ 1 := by
    rw [put_ne _ _ (by decide)]
    refine ⟨_, rfl, ?_⟩
    show ((tree3.rows.filter _).map _).length ≤ 1
    rw [List.length_map, hab, List.filter_cons, List.filter_cons_of_neg]
    · split <;> simp
    · have : Gone world mid3 (key (nm b!"tree")) (key (nm b!"tree_new")) b := hgone
      simpa using this
  obtain ⟨db', h1, h2, -⟩ := rename_rows (m := b!"tree") hT (put_self _ _ _ :
    ((deleteAll world mid3 (key (nm b!"tree"))).put (key (nm b!"tree")) none) (fold b!"tree") = none)
    b!"legacy_alter_table" b!"off"
  refine ⟨db', ?_, ?_, tbl (tree false) rows3, ?_⟩
  rotate_left
  · rw [e1, run_append, e2, Option.bind_some, run_exec hdrop]
    exact h1
  · cases e : db' b!"tree" with
    | none =>
      rw [show fold b!"tree" = b!"tree" from by decide, e] at h2; cases h2
    | some T' =>
      rw [show fold b!"tree" = b!"tree" from by decide, e] at h2
      refine ⟨T', rfl, rfl, rfl, ?_⟩
      have : T'.rows = T.rows := Option.some.inj h2
      rw [this]
      exact hlen
  · intro x hx
    simp only [s3, List.mem_cons, List.not_mem_nil, or_false] at hx
    subst hx
    exact ⟨tbl (tree false) rows3, rfl, by decide +kernel, by decide +kernel⟩

/-! ## Migrations that fail -/

/-- The file of a migration and its statements. -/
def Writes (s d : Schema) (text : Str) (sts : Option (List LiteText.Stmt)) : Prop :=
  migration b!"01" (cat s) (cat d) true = some [(b!"01.sql", text)] ∧
    LiteText.runScript (keywords .sqlite) [] text = sts

instance (s d : Schema) (text : Str) (sts : Option (List LiteText.Stmt)) :
    Decidable (Writes s d text sts) := by unfold Writes; infer_instance

def posts4 (author : Bool) : Table :=
  { tableName := b!"posts", columns := idCol b!"posts" :: col b!"posts" b!"title" b!"TEXT" ::
      (if author then [col b!"posts" b!"author" b!"INT"] else []),
    constraints := pk b!"posts" [b!"id"] ::
      (if author then [fkey b!"posts" b!"author" b!"users"] else []),
    indexes := if author then [] else [idx b!"posts" b!"posts_title" b!"title"] }

def s4 (author : Bool) : Schema := { tables := [users2 false, posts4 author] }

/-- C41, C42: a column is removed together with its foreign key.  The table is not rebuilt, and SQLite
refuses to drop a column that a foreign key of the table mentions. -/
theorem drop_fkey_column_refuted : ∃ text sts, Writes (s4 true) (s4 false) text (some sts) ∧
    SqliteOk (cat (s4 true)) (s4 true) ∧ SqliteOk (cat (s4 false)) (s4 false) ∧
    ∀ (w : World Nat) (fk : Bool) (db : Db Nat) (rows : List (Row Nat)),
      db b!"posts" = some ⟨colsOf (itemsOf (posts4 true)), consOf (itemsOf (posts4 true)), rows⟩ →
      run w fk db sts = none := by
  refine ⟨b!"ALTER TABLE posts DROP COLUMN author;\n\nCREATE INDEX posts_title ON posts (title);\n",
    [.dropColumn (nm b!"posts") b!"author", indexOf (idx b!"posts" b!"posts_title" b!"title")],
    by decide +kernel, ⟨by decide +kernel, rfl⟩, ⟨by decide +kernel, rfl⟩,
    fun w fk db rows h => ?_⟩
  have : effect w fk db (.dropColumn (nm b!"posts") b!"author") = none := by
    simp only [effect, key_nm]
    rw [show fold b!"posts" = b!"posts" from by decide, h]
    rfl
  rw [run, exec, this]
  split <;> rfl

def named (n : Str) : Table :=
  { tableName := b!"users", columns := [idCol b!"users", col b!"users" n b!"TEXT"],
    constraints := [pk b!"users" [b!"id"]] }

def names (n : Str) : Schema := { tables := [named n] }

/-- C42: SQLite does not distinguish `Name` and `name`, but the migration drops one column and adds the
other: the values are lost. -/
theorem case_of_column_refuted : ∃ text sts,
    Writes (names b!"Name") (names b!"name") text (some sts) ∧
    ∃ (db db' : Db Nat) (T T' : Tbl Nat), run world false db sts = some db' ∧
      db b!"users" = some T ∧ db' b!"users" = some T' ∧
      T.rows.map (fun r => r (fold b!"Name")) = [70] ∧
      T'.rows.map (fun r => r (fold b!"name")) = [0] :=
  ⟨b!"ALTER TABLE users DROP COLUMN \"Name\";\n\nALTER TABLE users ADD COLUMN name TEXT;\n",
    [.dropColumn (nm b!"users") b!"Name",
      .addColumn (nm b!"users") (colOf .sqlite [] true (col b!"users" b!"name" b!"TEXT"))],
    by decide +kernel,
    fun n => [(b!"users", tbl (named b!"Name")
      [[(b!"id", 7), (b!"name", 70)]])].lookup n, _, _, _, rfl, rfl, rfl, rfl, rfl⟩

/-- C42: tables that have no column in common give a statement that is not SQL. -/
theorem no_common_column_refuted : ∃ text,
    Writes { tables := [{ tableName := b!"t", columns := [idCol b!"t"], constraints := [pk b!"t" [b!"id"]] }] }
      { tables := [{ tableName := b!"t", columns := [col b!"t" b!"x" b!"INT"] }] } text none :=
  ⟨b!"PRAGMA legacy_alter_table = ON;\n\nCREATE TABLE t_new (\n    x INT\n);\nINSERT INTO t_new\n    ()\nSELECT\n    \nFROM\n    t\n;\nDROP TABLE t;\nALTER TABLE t_new RENAME TO t;\n\nPRAGMA legacy_alter_table = OFF;\n",
    by decide +kernel⟩

end Sqddl.Sqlite.Samples
