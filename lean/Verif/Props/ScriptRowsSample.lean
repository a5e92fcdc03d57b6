import Verif.Props.ScriptRows

/-!
# C109: examples, and the objects that are missed
-/

namespace Sqddl.Scripts
open OwnSpec

/-! ## Postgres -/

/-- a schema of the user and one of Postgres, a table with a comment, an index and a primary key -/
def pgSample : PgTables where
  namespaces := [⟨11, b!"pg_catalog"⟩, ⟨20, b!"app"⟩]
  classes := [⟨30, 20, b!"users", 'r'⟩, ⟨31, 20, b!"users_pkey", 'i'⟩, ⟨32, 20, b!"users_name_idx", 'i'⟩,
    ⟨33, 11, b!"pg_type", 'r'⟩, ⟨34, 20, b!"active", 'v'⟩]
  descriptions := [⟨30, 1259, 0, b!"people"⟩]
  indexes := [⟨31, 30⟩, ⟨32, 30⟩]
  constraints := [⟨b!"users_pkey", some 31⟩]

theorem pgSample_plain : ∀ n ∈ pgSample.namespaces, PlainSchema n.nspname := by
  intro n hn
  simp only [pgSample, List.mem_cons, List.not_mem_nil, or_false] at hn
  rcases hn with rfl | rfl
  · exact fun _ => .inr ⟨b!"catalog", rfl⟩
  · intro h; revert h; decide

theorem oneOf_none : OneOf ([] : List Str) [] := .inl rfl

example : (b!"app", b!"users", b!"people") ∈ pgTables {} pgSample ∧ (pgTables {} pgSample).length = 1 := by decide

example := (pg_tables_partial (f := {}) (c := pgSample) oneOf_none oneOf_none pgSample_plain (by decide)
  b!"app" b!"users" b!"people").mp (by decide)

example : pgIndexes {} pgSample = [(b!"app", b!"users", b!"users_name_idx")] := by decide

theorem pgSample_constraints : ∀ x ∈ pgSample.indexes, ∀ i ∈ pgSample.classes, i.oid = x.indexrelid →
    ∀ k ∈ pgSample.constraints, k.conname = i.relname ↔ k.made = some x.indexrelid := by decide

example := (pg_indexes_partial (f := {}) (c := pgSample) oneOf_none oneOf_none pgSample_plain
  pgSample_constraints b!"app" b!"users" b!"users_name_idx").mp (by decide)

/-- The underscore of `LIKE 'pg_%'` stands for any character: the tables in a schema `pgapp`, which is
not Postgres' own, are not reported. -/
theorem pg_schema_refuted : ∃ c : PgTables, ∃ n ∈ c.namespaces, ∃ t ∈ c.classes,
    t.relnamespace = n.oid ∧ t.relkind = 'r' ∧ ¬ PgOwn n.nspname ∧ pgTables {} c = [] := by
  refine ⟨⟨[⟨20, b!"pgapp"⟩], [⟨30, 20, b!"users", 'r'⟩], [], [], []⟩, _, List.mem_cons_self .., _,
    List.mem_cons_self .., rfl, rfl, ?_, by decide⟩
  rintro (h | ⟨t, h⟩)
  · revert h; decide
  · revert h
    exact fun h => absurd (congrArg (fun l => l.take 3) h) (by simp)

/-- The comments are joined by the number of the table alone: the comment of a column is reported as
the comment of its table. -/
theorem pg_comment_refuted : ∃ c : PgTables, ∃ t ∈ c.classes, ∃ text : Str,
    (b!"app", t.relname, text) ∈ pgTables {} c ∧ ¬ IsComment c t.oid text := by
  refine ⟨⟨[⟨20, b!"app"⟩], [⟨30, 20, b!"users", 'r'⟩], [⟨30, 1259, 2, b!"in metres"⟩], [], []⟩, _,
    List.mem_cons_self .., b!"in metres", by decide, ?_⟩
  rintro (⟨d, hd, _, _, h, _⟩ | ⟨_, h⟩)
  · rw [List.mem_singleton.mp hd] at h
    cases h
  · cases h

/-- A table with comments on two of its columns is reported twice. -/
theorem pg_twice_refuted : ∃ c : PgTables, c.classes.length = 1 ∧
    pgTables {} c = [(b!"app", b!"users", b!"in metres"), (b!"app", b!"users", b!"in years")] :=
  ⟨⟨[⟨20, b!"app"⟩], [⟨30, 20, b!"users", 'r'⟩],
    [⟨30, 1259, 2, b!"in metres"⟩, ⟨30, 1259, 3, b!"in years"⟩], [], []⟩, rfl, by decide⟩

/-- The constraints are compared by name alone: an index that has the name of a constraint of another
table is not reported. -/
theorem pg_index_refuted : ∃ c : PgTables, (∀ k ∈ c.constraints, k.made = none) ∧ c.indexes.length = 1 ∧
    (∀ f : Filter, pgIndexes f c = []) := by
  refine ⟨⟨[⟨20, b!"app"⟩], [⟨30, 20, b!"users", 'r'⟩, ⟨31, 20, b!"by_name", 'i'⟩], [], [⟨31, 30⟩],
    [⟨b!"by_name", none⟩]⟩, by decide, rfl, fun f => ?_⟩
  unfold pgIndexes
  simp

/-- Names to include and names to exclude are not combined: with both, nothing is excluded. -/
theorem both_lists_refuted : ∃ (f : Filter) (x : Str), x ∈ f.excludeSchemas ∧
    ¬ Wanted f.schemas f.excludeSchemas x ∧ passes f.schemas f.excludeSchemas x = true :=
  ⟨{ schemas := [b!"app"], excludeSchemas := [b!"app"] }, b!"app", List.mem_cons_self ..,
    fun h => h.2 (List.mem_cons_self ..), by decide⟩

/-! ## MySQL -/

/-- a database of the user with two tables, an index, a primary key and two procedures, and one of
MySQL -/
def mySample : MyTables where
  tables := [(b!"app", b!"users", b!"BASE TABLE", b!"people"), (b!"app", b!"active", b!"VIEW", []),
    (b!"mysql", b!"user", b!"BASE TABLE", [])]
  statistics := [(b!"app", b!"users", b!"PRIMARY"), (b!"app", b!"users", b!"by_name")]
  constraints := [(b!"app", b!"users", b!"PRIMARY")]
  routines := [(b!"app", b!"add_user"), (b!"app", b!"drop_user")]
  parameters := [(b!"app", b!"add_user"), (b!"app", b!"add_user"), (b!"app", b!"drop_user")]

example : myTables {} mySample = [(b!"app", b!"users", b!"people")] := by decide

example := (mysql_tables (f := {}) mySample oneOf_none oneOf_none b!"app" b!"users" b!"people").mp (by decide)

example := (mysql_indexes_partial (f := {}) mySample oneOf_none oneOf_none (by decide) b!"app" b!"users"
  b!"by_name").mp (by decide)

example : myIndexes {} mySample = [(b!"app", b!"users", b!"by_name")] := by decide

example := (mysql_routines_partial (f := {}) mySample oneOf_none oneOf_none (by decide) b!"app"
  b!"add_user").mp (by decide)

/-- The parameters are joined with an inner join: a procedure without parameters is not reported. -/
theorem mysql_routine_refuted : ∃ c : MyTables, (b!"app", b!"cleanup") ∈ c.routines ∧
    ∀ f : Filter, (b!"app", b!"cleanup") ∉ myRoutines f c := by
  refine ⟨⟨[], [], [], [(b!"app", b!"cleanup")], []⟩, List.mem_cons_self .., fun f h => ?_⟩
  unfold myRoutines at h
  simp at h

/-- An index that has the name of a constraint of another table is not reported. -/
theorem mysql_index_refuted : ∃ c : MyTables, (b!"app", b!"users", b!"by_name") ∈ c.statistics ∧
    (b!"app", b!"users", b!"by_name") ∉ c.constraints ∧
    ∀ f : Filter, (b!"app", b!"users", b!"by_name") ∉ myIndexes f c := by
  refine ⟨⟨[], [(b!"app", b!"users", b!"by_name")], [(b!"app", b!"posts", b!"by_name")], [], []⟩,
    List.mem_cons_self .., by decide, fun f h => ?_⟩
  unfold myIndexes at h
  simp at h

/-- The database of the connection is not part of the condition: the tables of the other databases of
the server are reported as well. -/
theorem mysql_other_database_refuted : ∃ c : MyTables,
    (b!"app", b!"users", []) ∈ myTables {} c ∧ (b!"billing", b!"invoices", []) ∈ myTables {} c :=
  ⟨⟨[(b!"app", b!"users", b!"BASE TABLE", []), (b!"billing", b!"invoices", b!"BASE TABLE", [])], [], [], [],
    []⟩, by decide⟩

/-! ## SQLite -/

/-- two tables and one of SQLite -/
def liteSample : LiteTables where
  rows := [⟨b!"table", b!"users", b!"CREATE TABLE users (id INT)"⟩,
    ⟨b!"table", b!"sqlite_sequence", b!"CREATE TABLE sqlite_sequence(name,seq)"⟩,
    ⟨b!"index", b!"users", b!"CREATE INDEX i ON users (id)"⟩]
  tableList := [(b!"main", b!"users", b!"table"), (b!"main", b!"sqlite_sequence", b!"table")]
  columns := fun t => if t = b!"users" then [b!"id"] else []

theorem liteSample_plain : ∀ m ∈ liteSample.rows, PlainTable m.tblName := by
  intro m hm
  simp only [liteSample, List.mem_cons, List.not_mem_nil, or_false] at hm
  rcases hm with rfl | rfl | rfl
  · exact fun _ => .inl (by decide)
  · exact fun _ => .inr ⟨b!"sequence", by decide⟩
  · exact fun _ => .inl (by decide)

example : liteTables false {} liteSample = [b!"users"] := by decide

example := (sqlite_tables_partial (f := {}) (c := liteSample) rfl oneOf_none liteSample_plain b!"users").mp
  (by decide)

example := (sqlite_columns_partial (f := {}) (c := liteSample) rfl
  (m := ⟨b!"table", b!"users", b!"CREATE TABLE users (id INT)"⟩) (List.mem_cons_self ..) rfl (by decide) (by decide)
  b!"id").mp (by decide)

/-- A table `sqlitelog`, which is not SQLite's own, is not reported. -/
theorem sqlite_name_refuted : ∃ c : LiteTables, ¬ LiteOwn b!"sqlitelog" ∧
    (b!"main", b!"sqlitelog", b!"table") ∈ c.tableList ∧ ∀ old, liteTables old {} c = [] := by
  refine ⟨⟨[⟨b!"table", b!"sqlitelog", b!"CREATE TABLE sqlitelog (id INT)"⟩],
    [(b!"main", b!"sqlitelog", b!"table")], fun _ => [b!"id"]⟩, ?_, List.mem_cons_self .., by decide⟩
  rintro ⟨t, h⟩
  have := congrArg (fun l => l.take 7) h
  revert this
  simp
  decide

/-- A table whose name was written in single quotes is reported without columns. -/
theorem sqlite_quoted_refuted : ∃ c : LiteTables, b!"users" ∈ liteTables false {} c ∧
    c.columns b!"users" = [b!"id"] ∧ liteColumns {} c = [] :=
  ⟨⟨[⟨b!"table", b!"users", b!"CREATE TABLE 'users' (id INT)"⟩],
    [(b!"main", b!"users", b!"table")], fun _ => [b!"id"]⟩, by decide, rfl, by decide⟩

/-! ## SQL Server -/

/-- tables and routines, of the server and not -/
def msSample : List MsObject :=
  [⟨b!"dbo", b!"users", b!"U"⟩, ⟨b!"dbo", b!"spt_monitor", b!"U"⟩, ⟨b!"dbo", b!"add_user", b!"P"⟩,
    ⟨b!"dbo", b!"sp_who", b!"P"⟩]

example : msTables Go.lowerC {} msSample = [(b!"dbo", b!"users")] ∧
    msRoutines Go.lowerC {} msSample = [(b!"dbo", b!"add_user")] := by decide

/-- what SQL Server brings along in `msSample` -/
def msShipped (o : MsObject) : Prop := o.name = b!"spt_monitor" ∨ o.name = b!"sp_who"

instance : DecidablePred msShipped := fun _ => inferInstanceAs (Decidable (_ ∨ _))

instance (fold : Char → Char) (a b : Str) : Decidable (Longer fold a b) := inferInstanceAs (Decidable (_ ∧ _))

example := (sqlserver_tables_partial (fold := Go.lowerC) (f := {}) (objects := [⟨b!"dbo", b!"users", b!"U"⟩,
  ⟨b!"dbo", b!"spt_monitor", b!"U"⟩]) msShipped rfl oneOf_none oneOf_none (by decide) (by decide) b!"dbo"
  b!"users").mp (by decide)

example := (sqlserver_routines_partial (fold := Go.lowerC) (f := {}) (objects := [⟨b!"dbo", b!"add_user", b!"P"⟩,
  ⟨b!"dbo", b!"sp_who", b!"P"⟩]) msShipped rfl oneOf_none oneOf_none (by decide) b!"dbo" b!"add_user").mp
  (by decide)

/-- A function `split_string` begins with `sp` and is not reported. -/
theorem sqlserver_routine_refuted : msRoutines Go.lowerC {} [⟨b!"dbo", b!"split_string", b!"FN"⟩] = [] ∧
    ¬ (b!"sp_" <+: b!"split_string") := by
  refine ⟨by decide, ?_⟩
  rintro ⟨t, h⟩
  exact absurd (congrArg (fun l => l.take 3) h) (by simp)

end Sqddl.Scripts
