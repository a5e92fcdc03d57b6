import Verif.Props.DumpSqlite

/-!
# Examples and refutations for C101
-/

namespace LiteDump
open Go SqlSpec Sqddl Introspect IntrospectSpec

/-- The rows of the tables of a database: a table, a table that references a later one, and a virtual
table. -/
def tableRows : List Table :=
  [{ tableName := b!"Orders",
     sql := b!"CREATE TABLE Orders (id INTEGER PRIMARY KEY, -- the number; unique\n  who TEXT REFERENCES customer (name), note TEXT DEFAULT 'a;b');" },
   { tableName := b!"customer", sql := b!"CREATE TABLE \"customer\"(name TEXT PRIMARY KEY) WITHOUT ROWID;" },
   { tableName := b!"docs", sql := b!"CREATE VIRTUAL TABLE docs USING fts5(body);" }]

/-- The rows of its indexes. -/
def indexRows : List IndexRow :=
  [{ row := { tableName := b!"customer", indexName := b!"name_idx"
              sql := b!"CREATE UNIQUE INDEX name_idx ON customer (lower(name));" }
     columns := b!"" },
   { row := { tableName := b!"Orders", indexName := b!"who_idx"
              sql := b!"CREATE INDEX who_idx ON Orders (who) WHERE note <> 'x';" }
     columns := b!"who" }]

/-- The database. -/
def server : Server :=
  { version := some b!"3.39.4"
    tables := some { rows := tableRows.map some }
    indexes := some { rows := indexRows.map some } }

/-- Its tables. -/
def tableDefs : List Entry :=
  (tableRows.mapM fun r => definition (keywords .sqlite) r.sql).getD []

/-- Its indexes. -/
def indexDefs : List Entry :=
  (indexRows.mapM fun r => definition (keywords .sqlite) r.row.sql).getD []

/-- What introspection reads. -/
def reported : Reported :=
  { tables := tableRows.map (scanTable .sqlite), indexes := indexRows.map indexOf }

theorem server_answers : Answers (keywords .sqlite) server tableRows indexRows tableDefs indexDefs where
  tables := rfl
  indexes := rfl
  tableDefs := by decide +kernel
  indexDefs := by decide +kernel
  kinds := by decide +kernel
  index := by decide +kernel
  on := by decide +kernel

theorem server_sound : Sound (tableDefs ++ indexDefs) := by
  constructor
  · unfold SameName; decide +kernel
  · unfold SameName
    have : ∀ e ∈ tableDefs ++ indexDefs, e.kind = .index →
        ((tableDefs ++ indexDefs).any fun x => x.kind = .table ∧ Go.toLower x.name = Go.toLower e.table)
          = true := by decide +kernel
    intro e he hi
    obtain ⟨x, hx, h⟩ := List.any_eq_true.1 (this e he hi)
    exact ⟨x, hx, by simpa using h⟩

example : tableDefs.map (fun e => (e.kind, e.name)) =
      [(.table, b!"Orders"), (.table, b!"customer"), (.virtual, b!"docs")] ∧
    indexDefs.map (fun e => (e.name, e.table)) =
      [(b!"name_idx", b!"customer"), (b!"who_idx", b!"Orders")] := by decide +kernel

example : ∃ c s1 s2 s3 db,
    writeCatalog (fun _ => false) .sqlite [] server {} = .ok c ∧
    runScript (keywords .sqlite) (Dump.dumpSchema .sqlite c) = some s1 ∧
    runScript (keywords .sqlite) (Dump.dumpIndexes .sqlite c) = some s2 ∧
    runScript (keywords .sqlite) (Dump.dumpConstraints .sqlite c) = some s3 ∧
    Runs [] (s1 ++ s2 ++ s3) db ∧ db.Perm (tableDefs ++ indexDefs) :=
  sqlite_backup_partial (o := reported) (exts := []) (nums := [3, 39, 4]) (name := []) (cur := [])
    (coll := [])
    (by constructor <;> (simp only [asked, includeObjectType, List.isEmpty_nil, Bool.true_or, if_true]
                         decide +kernel))
    (by constructor <;> decide +kernel) (by constructor <;> decide +kernel)
    (by intro k hk; cases hk) (by intro k hk; cases hk) rfl server_answers server_sound
    (by decide +kernel)
    (by
      have : ∀ r ∈ tableRows, '\r' ∉ r.sql := by decide +kernel
      intro r hr ⟨p, q, e⟩
      exact this r hr (by rw [← e]; simp))
    (by
      have : ∀ r ∈ indexRows, '\r' ∉ r.row.sql := by decide +kernel
      intro r hr ⟨p, q, e⟩
      exact this r hr (by rw [← e]; simp))

/-! ## What is lost -/

/-- The definition of a table with a line break in the Windows manner in a string. -/
def windows : Str := b!"CREATE TABLE t (a TEXT DEFAULT 'x\r\ny');"

/-- **Refuted without the condition on carriage returns**: the definition of the table that is dumped is
another one, its default has lost a character (/repo/ddl/database_introspector.go:1295). -/
theorem sqlite_dump_carriage_return_refuted :
    ∃ e e', definition (keywords .sqlite) windows = some e ∧
      runScript (keywords .sqlite)
        (Dump.dumpSchema .sqlite
          { schemas := [{ tables := [scanTable .sqlite { tableName := b!"t", sql := windows }] }] }) =
        some [e'] ∧
      Tok.str b!"x\r\ny" ∈ e.text ∧ Tok.str b!"x\r\ny" ∉ e'.text ∧ Tok.str b!"x\ny" ∈ e'.text :=
  ⟨((definition (keywords .sqlite) windows).getD ⟨.table, [], [], []⟩),
   ((definition (keywords .sqlite) b!"CREATE TABLE t (a TEXT DEFAULT 'x\ny');").getD
      ⟨.table, [], [], []⟩), by decide +kernel⟩

/-- A table whose name has a line break. -/
def broken : Catalog :=
  { schemas := [{ tables := [
      { tableName := b!"a\nb", sql := b!"CREATE TABLE \"a\nb\" (c TEXT);"
        indexes := [{ tableName := b!"a\nb", indexName := b!"i"
                      sql := b!"CREATE INDEX i ON \"a\nb\" (c);" }] }] }] }

/-- **Refuted without the condition on line breaks**: the name of the table is written into a comment
and goes on after it, so that indexes.sql is no script of definitions
(/repo/ddl/dump_cmd.go:745-749). -/
theorem sqlite_dump_line_break_refuted :
    (∃ e x, definition (keywords .sqlite) b!"CREATE TABLE \"a\nb\" (c TEXT);" = some e ∧
      definition (keywords .sqlite) b!"CREATE INDEX i ON \"a\nb\" (c);" = some x ∧
      Accepts [e] x) ∧
    runScript (keywords .sqlite) (Dump.dumpIndexes .sqlite broken) = none := by
  refine ⟨⟨((definition (keywords .sqlite) b!"CREATE TABLE \"a\nb\" (c TEXT);").getD ⟨.table, [], [], []⟩),
    ((definition (keywords .sqlite) b!"CREATE INDEX i ON \"a\nb\" (c);").getD ⟨.table, [], [], []⟩),
    by decide +kernel, by decide +kernel, ?_⟩, by decide +kernel⟩
  refine ⟨?_, fun _ => ⟨_, List.mem_cons_self, by decide +kernel, ?_⟩⟩
  · unfold SameName; decide +kernel
  · unfold SameName; decide +kernel

end LiteDump
