import Verif.Lemmas.StructSame
import Verif.Lemmas.StructCheck

/-!
# C53, C73-C75: the structs generated for a database describe it

`tables` writes a struct for every table of a database, and `generate` and `automigrate` read structs
back.  For databases within the limits of `StructSpec.Fits` what is read back has the same tables, and
so the comparison with the database finds nothing to do.  The refutations at the end show what happens
outside these limits.
-/

namespace Sqddl.Structs
open Go CatalogSpec StructSpec

/-- **C73** (partial): the structs written for a database that fits are read without an error and
without a panic, and what is read has the same tables: the same columns in the same order with the same
types, defaults and flags, the same primary keys, unique constraints, foreign keys and indexes, and no
others.

Missing for the full statement: databases outside `Fits` — see the refutations below; CHECK and EXCLUDE
constraints, the expressions of generated columns and the types of domains, which structs cannot
describe; the Go syntax around the tags. -/
theorem structs_describe_partial {isFloat : Str → Bool} {cat : Catalog} (hfit : Fits isFloat cat) :
    ∃ cat', roundTrip isFloat cat = some (cat', false) ∧ SameTables cat cat' := by
  obtain ⟨cat', h, l, hl, hc, hr⟩ := roundTrip_ok hfit
  exact ⟨cat', h, roundTrip_same hfit hl hc hr⟩

theorem map_eq_of_zip {α β : Type} {f : α → β} : ∀ {xs ys : List α}, ys.length = xs.length →
    (∀ p ∈ xs.zip ys, f p.2 = f p.1) → ys.map f = xs.map f
  | [], [], _, _ => rfl
  | x :: xs, y :: ys, hl, h => by
    rw [List.map_cons, List.map_cons, h (x, y) (by simp),
      map_eq_of_zip (by simpa using hl) fun p hp => h p (by simp [hp])]

/-- **C53** (partial): the columns have the types that they have in the database, table by table. -/
theorem structs_types_partial {isFloat : Str → Bool} {cat : Catalog} (hfit : Fits isFloat cat) :
    ∃ cat', roundTrip isFloat cat = some (cat', false) ∧
      (tablesOf cat').map (fun t => (t.tableSchema, t.tableName,
        t.columns.map fun c => (c.columnName, c.columnType))) =
      (tablesOf cat).map (fun t => (t.tableSchema, t.tableName,
        t.columns.map fun c => (c.columnName, c.columnType))) := by
  obtain ⟨cat', h, hs⟩ := structs_describe_partial hfit
  refine ⟨cat', h, map_eq_of_zip hs.count fun p hp => ?_⟩
  have ht := hs.tables p hp
  rw [ht.schema, ht.name, map_eq_of_zip ht.columnCount fun q hq => ?_]
  rw [(ht.columns q hq).name, (ht.columns q hq).type]

/-- **C74** (partial; MySQL, Postgres, SQL Server): a migration from a database to its own structs is
empty.  With `drop` schemas without tables would be dropped, since no struct mentions them. -/
theorem structs_no_migration_partial {isFloat : Str → Bool} {cat : Catalog} (hfit : Fits isFloat cat)
    {d : Dialect} (hd : Server d) (drop : Bool)
    (hdrop : drop = true → ∀ s ∈ cat.schemas, s.tables ≠ []) :
    ∃ cat', roundTrip isFloat cat = some (cat', false) ∧ diffEvents d cat cat' drop = [] := by
  obtain ⟨cat', h, hs⟩ := structs_describe_partial hfit
  exact ⟨cat', h, sameTables_diff hfit hs hd drop hdrop⟩

/-- **C74** (partial; SQLite, which has one schema): the constraints belong to their tables, and with
`drop` there are no constraints other than keys and foreign keys (none are read from SQLite). -/
theorem structs_no_migration_sqlite_partial {isFloat : Str → Bool} {cat : Catalog}
    (hfit : Fits isFloat cat) (hd : dialectOf cat.dialect = .sqlite) (drop : Bool) {s : Schema}
    (hone : cat.schemas = [s])
    (hown : ∀ t ∈ s.tables, ∀ k ∈ keysOf t, k.tableName = t.tableName)
    (hdrop : drop = true → ∀ t ∈ s.tables, ∀ k ∈ t.constraints, isKeyOrRef k = true) :
    ∃ cat', roundTrip isFloat cat = some (cat', false) ∧ diffEvents .sqlite cat cat' drop = [] := by
  obtain ⟨cat', h, hs⟩ := structs_describe_partial hfit
  exact ⟨cat', h, sameTables_diff_sqlite hfit hs hd drop hone hown hdrop⟩

/-! ## Samples -/

namespace Samples

/-- a column -/
def col (n ty : Str) (nn : Bool := false) : Column :=
  { columnName := n, columnType := ty, isNotNull := nn }

/-- a key -/
def key (t n ty : Str) (cols : List Str) : Constraint :=
  { tableName := t, constraintName := n, constraintType := ty, columns := cols }

/-- Postgres: two schemas, a composite primary key, an enum, an array, a foreign key into another
schema, names with a space and with capital letters, a CHECK -/
def pg : Catalog :=
  { dialect := b!"postgres", currentSchema := b!"public", defaultCollation := b!"en_US.utf8"
    schemas := [
      { schemaName := b!"public"
        tables := [
          { tableSchema := b!"public", tableName := b!"users"
            columns := [
              { col b!"user_id" b!"BIGINT" true with
                columnIdentity := b!"GENERATED ALWAYS AS IDENTITY" },
              { col b!"email" b!"VARCHAR(255)" true with collationName := b!"C" },
              { col b!"tags" b!"TEXT[]" with columnDefault := b!"ARRAY['a b']::text[]" },
              { col b!"created at" b!"TIMESTAMPTZ" with columnDefault := b!"now()" }]
            constraints := [
              key b!"users" b!"users_user_id_pkey" PRIMARY_KEY [b!"user_id"],
              { key b!"users" b!"users_email_key" UNIQUE [b!"email"] with isDeferrable := true },
              { key b!"users" b!"users_check" CHECK [] with checkExpr := b!"email <> ''" }]
            indexes := [
              { tableName := b!"users", indexName := b!"users_tags_idx", columns := [b!"tags"]
                indexType := b!"GIN" },
              { tableName := b!"users", indexName := b!"users_email_created_at_idx"
                columns := [b!"email", b!"created at"], indexType := b!"BTREE" }] }] },
      { schemaName := b!"app"
        tables := [
          { tableSchema := b!"app", tableName := b!"Log"
            columns := [col b!"day" b!"DATE" true, col b!"n" b!"INT" true, col b!"who" b!"BIGINT",
              { col b!"state" b!"app.mood" with isEnum := true }]
            constraints := [
              key b!"Log" b!"Log_day_n_pkey" PRIMARY_KEY [b!"day", b!"n"],
              { key b!"Log" b!"Log_who_fkey" FOREIGN_KEY [b!"who"] with
                referencesSchema := b!"public", referencesTable := b!"users"
                referencesColumns := [b!"user_id"], updateRule := b!"CASCADE"
                deleteRule := b!"NO ACTION" }] }] }] }

/-- SQLite: a row number with AUTOINCREMENT, defaults of both kinds, a deferred foreign key to the
same table -/
def lite : Catalog :=
  { dialect := b!"sqlite"
    schemas := [
      { tables := [
          { tableName := b!"emp"
            columns := [
              { col b!"id" b!"INTEGER" with isAutoincrement := true },
              { col b!"name" b!"TEXT" true with columnDefault := b!"'x y'" },
              { col b!"hired" b!"DATETIME" with columnDefault := b!"(unixepoch())" },
              col b!"boss" b!"INT"]
            constraints := [
              key b!"emp" b!"emp_id_pkey" PRIMARY_KEY [b!"id"],
              key b!"emp" b!"emp_name_hired_key" UNIQUE [b!"name", b!"hired"],
              { key b!"emp" b!"emp_boss_fkey" FOREIGN_KEY [b!"boss"] with
                referencesTable := b!"emp", referencesColumns := [b!"id"]
                deleteRule := b!"SET NULL", isDeferrable := true, isInitiallyDeferred := true }]
            indexes := [
              { tableName := b!"emp", indexName := b!"emp_boss_idx", columns := [b!"boss"] }] }] }] }

theorem pg_fits : Fits (fun _ => false) pg := Check.fits (by decide +kernel)

theorem lite_fits : Fits (fun _ => false) lite := Check.fits (by decide +kernel)

/-- MySQL: a table with a column of this type that is set whenever the row is changed -/
def mysql (ty : Str) : Catalog :=
  { dialect := b!"mysql", defaultCollation := b!"utf8mb4_0900_ai_ci"
    schemas := [
      { tables := [
          { tableName := b!"t"
            columns := [{ col b!"id" b!"INT" true with isAutoincrement := true },
              { col b!"at" ty with onUpdateCurrentTimestamp := true }]
            constraints := [key b!"t" b!"PRIMARY" PRIMARY_KEY [b!"id"]] }] }] }

theorem mysql_fits : Fits (fun _ => false) (mysql b!"DATETIME(6)") := Check.fits (by decide +kernel)

end Samples

section
open Samples

example : ∃ cat', roundTrip (fun _ => false) lite = some (cat', false) ∧
    (tablesOf cat').map (fun t => (t.tableSchema, t.tableName,
        t.columns.map fun c => (c.columnName, c.columnType))) =
      [([], b!"emp", [(b!"id", b!"INTEGER"), (b!"name", b!"TEXT"), (b!"hired", b!"DATETIME"),
        (b!"boss", b!"INT")])] :=
  structs_types_partial lite_fits

example : ∃ cat', roundTrip (fun _ => false) pg = some (cat', false) ∧ SameTables pg cat' ∧
    cat'.schemas.map (·.schemaName) = [b!"public", b!"app"] := by
  obtain ⟨cat', h, hs⟩ := structs_describe_partial pg_fits
  exact ⟨cat', h, hs, by rw [hs.schemas]; decide⟩

example (drop : Bool) : ∃ cat', roundTrip (fun _ => false) pg = some (cat', false) ∧
    diffEvents .postgres pg cat' drop = [] :=
  structs_no_migration_partial pg_fits (.inr (.inl rfl)) drop (fun _ => by decide)

example (drop : Bool) : ∃ cat', roundTrip (fun _ => false) (mysql b!"DATETIME(6)") = some (cat', false) ∧
    diffEvents .mysql (mysql b!"DATETIME(6)") cat' drop = [] :=
  structs_no_migration_partial mysql_fits (.inl rfl) drop (fun _ => by decide)

example (drop : Bool) : ∃ cat', roundTrip (fun _ => false) lite = some (cat', false) ∧
    diffEvents .sqlite lite cat' drop = [] :=
  structs_no_migration_sqlite_partial lite_fits (by decide) drop (s := lite.schemas.headD {}) (by decide)
    (by decide) (fun _ => by decide)

end

/-! ## Outside the limits -/

/-- Reading the structs of the database back gives no error, and the comparison with the database
finds something to do. -/
def Spurious (d : Dialect) (drop : Bool) (cat : Catalog) : Prop :=
  ∃ cat', roundTrip (fun _ => false) cat = some (cat', false) ∧ diffEvents d cat cat' drop ≠ []

/-- `Spurious`, computed -/
def spurious (d : Dialect) (drop : Bool) (cat : Catalog) : Bool :=
  match roundTrip (fun _ => false) cat with
  | some (cat', false) => !(diffEvents d cat cat' drop).isEmpty
  | _ => false

theorem spurious_sound {d : Dialect} {drop : Bool} {cat : Catalog} (h : spurious d drop cat = true) :
    Spurious d drop cat := by
  unfold spurious at h
  split at h
  · rename_i cat' he
    exact ⟨cat', he, by simpa using h⟩
  · cases h

namespace Samples

/-- a table of SQLite with a primary key on a column of this type -/
def litePkey (ty : Str) : Catalog :=
  { dialect := b!"sqlite"
    schemas := [
      { tables := [
          { tableName := b!"t", columns := [col b!"id" ty, col b!"x" b!"INT"]
            constraints := [key b!"t" b!"t_id_pkey" PRIMARY_KEY [b!"id"]] }] }] }

/-- a table of Postgres with one column -/
def pgColumn (c : Column) (ks : List Constraint) : Catalog :=
  { dialect := b!"postgres", currentSchema := b!"public"
    schemas := [
      { schemaName := b!"public"
        tables := [
          { tableSchema := b!"public", tableName := b!"t", columns := [c], constraints := ks }] }] }

/-- a foreign key from one schema into another, between columns of the same name -/
def crossSchema : Catalog :=
  { dialect := b!"postgres", currentSchema := b!"public"
    schemas := [
      { schemaName := b!"public"
        tables := [
          { tableSchema := b!"public", tableName := b!"a", columns := [col b!"id" b!"INT"]
            constraints := [
              { key b!"a" b!"a_id_fkey" FOREIGN_KEY [b!"id"] with
                referencesSchema := b!"app", referencesTable := b!"b"
                referencesColumns := [b!"id"] }] }] },
      { schemaName := b!"app"
        tables := [
          { tableSchema := b!"app", tableName := b!"b", columns := [col b!"id" b!"INT"] }] }] }

/-- two tables, the first one refers to the second one -/
def twoTables : Catalog :=
  { dialect := b!"mysql"
    schemas := [
      { tables := [
          { tableName := b!"a", columns := [col b!"b" b!"INT"]
            constraints := [
              { key b!"a" b!"a_b_fkey" FOREIGN_KEY [b!"b"] with
                referencesTable := b!"b", referencesColumns := [b!"id"] }] },
          { tableName := b!"b", columns := [col b!"id" b!"INT"] }] }] }

end Samples

section
open Samples

/-- **C53, C74** (MySQL): a TIMESTAMP column is written as a `sq.TimeField` without a type and read as
DATETIME, so that the migration to the database's own structs changes the type of the column. -/
theorem structs_mysql_timestamp_refuted : Spurious .mysql false (mysql b!"TIMESTAMP") :=
  spurious_sound (by decide +kernel)

/-- **C53, C74** (SQLite): `id INT PRIMARY KEY` is read back as INTEGER PRIMARY KEY, a row number; with
`drop` the table is rebuilt. -/
theorem structs_sqlite_int_pkey_refuted : Spurious .sqlite true (litePkey b!"INT") :=
  spurious_sound (by decide +kernel)

/-- **C74** (SQLite): `id TEXT PRIMARY KEY` allows NULL in SQLite; what is read back is NOT NULL, and
with `drop` the table is rebuilt. -/
theorem structs_sqlite_text_pkey_refuted : Spurious .sqlite true (litePkey b!"TEXT") :=
  spurious_sound (by decide +kernel)

/-- **C74** (Postgres): the primary key of a table is called `t_pkey` if the database chooses the name;
the structs do not say so, and the migration replaces the primary key. -/
theorem structs_pkey_name_refuted :
    Spurious .postgres false
      (pgColumn (col b!"id" b!"INT" true) [key b!"t" b!"t_pkey" PRIMARY_KEY [b!"id"]]) :=
  spurious_sound (by decide +kernel)

/-- **C74** (Postgres): with `drop` a schema without tables is dropped. -/
theorem structs_empty_schema_refuted :
    Spurious .postgres true
      { pgColumn (col b!"id" b!"INT") [] with
        schemas := (pgColumn (col b!"id" b!"INT") []).schemas ++ [{ schemaName := b!"app" }] } :=
  spurious_sound (by decide +kernel)

/-- **C73**: a foreign key into another schema between columns of the same name is written as
`schema.table`, which is read as `table.column`: an error. -/
theorem structs_cross_schema_refuted :
    ∃ cat', roundTrip (fun _ => false) crossSchema = some (cat', true) := by
  have h : (roundTrip (fun _ => false) crossSchema).any (·.2) = true := by decide +kernel
  cases e : roundTrip (fun _ => false) crossSchema with
  | none => rw [e] at h; cases h
  | some r =>
    obtain ⟨cat', b⟩ := r
    rw [e] at h
    cases b
    · cases h
    · exact ⟨cat', rfl⟩

/-- **C73**: the expression of a generated column is not read back. -/
theorem structs_generated_refuted :
    ∃ cat', roundTrip (fun _ => false)
        (pgColumn { col b!"x" b!"INT" with isGenerated := true, generatedExpr := b!"1 + 1" } []) =
      some (cat', false) ∧
      (tablesOf cat').map (fun t => t.columns.map fun c => (c.isGenerated, c.generatedExpr)) =
        [[(true, [])]] := by
  have h : ((roundTrip (fun _ => false)
      (pgColumn { col b!"x" b!"INT" with isGenerated := true, generatedExpr := b!"1 + 1" } [])).any
      fun r => !r.2 && decide ((tablesOf r.1).map (fun t => t.columns.map fun c =>
        (c.isGenerated, c.generatedExpr)) = [[(true, [])]])) = true := by decide +kernel
  cases e : roundTrip (fun _ => false)
      (pgColumn { col b!"x" b!"INT" with isGenerated := true, generatedExpr := b!"1 + 1" } []) with
  | none => rw [e] at h; cases h
  | some r =>
    obtain ⟨cat', b⟩ := r
    rw [e] at h
    cases b
    · exact ⟨cat', rfl, by simpa using h⟩
    · cases h

/-- **C75**: two files with a struct each, the first one with a foreign key to the table of the second
one.  Read as one file, or in the other order, there is no error; in this order there is one. -/
theorem files_order_refuted :
    ∃ a b : List TableStruct, readCatalog twoTables = some (a ++ b) ∧
      ((readFiles (fun _ => false) [a ++ b] (emptyLike twoTables)).map (·.2) = some false) ∧
      ((readFiles (fun _ => false) [b, a] (emptyLike twoTables)).map (·.2) = some false) ∧
      ((readFiles (fun _ => false) [a, b] (emptyLike twoTables)).map (·.2) = some true) := by
  refine ⟨((readCatalog twoTables).getD []).take 1, ((readCatalog twoTables).getD []).drop 1, ?_⟩
  rw [List.take_append_drop]
  refine ⟨?_, by decide +kernel, by decide +kernel, by decide +kernel⟩
  have h : (readCatalog twoTables).isSome = true := by decide +kernel
  cases e : readCatalog twoTables with
  | none => rw [e] at h; cases h
  | some l => rfl

end

end Sqddl.Structs
