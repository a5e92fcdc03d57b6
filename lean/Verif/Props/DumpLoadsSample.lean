import Verif.Lemmas.DumpDecide
import Verif.Props.DumpLoads

/-!
# The SQL files of a dump recreate the schema: samples and refutations (C95)

Databases that meet the conditions of the theorems of Verif.Props.DumpLoads, and databases that show that
conditions are needed.
-/

namespace DumpSpec.Shop
open SqlSpec Sqddl DdlText EngineSpec CatalogSpec DumpParts
open Sqddl.Render

def col (s t n ty : Str) (nn : Bool := false) : Column :=
  { tableSchema := s, tableName := t, columnName := n, columnType := ty, isNotNull := nn }

def pk (s t n : Str) (cs : List Str) : Constraint :=
  { tableSchema := s, tableName := t, constraintName := n, constraintType := b!"PRIMARY KEY",
    columns := cs }

def fk (s t n c rs r rc : Str) : Constraint :=
  { tableSchema := s, tableName := t, constraintName := n, constraintType := b!"FOREIGN KEY",
    columns := [c], referencesSchema := rs, referencesTable := r, referencesColumns := [rc],
    deleteRule := b!"CASCADE" }

def idx (s t n : Str) (cs : List Str) (u : Bool := false) : Index :=
  { tableSchema := s, tableName := t, indexName := n, columns := cs, isUnique := u,
    descending := cs.map fun _ => false }

/-- The things of all dialects: logins, which reference customers of another schema by a unique index,
and customers with orders.  `p`: the name of a primary key, `x`: the indexes. -/
def tabs (p : Str → Str) (x y : List Index) : List Schema :=
  [{ schemaName := b!"auth", tables := [
      { tableSchema := b!"auth", tableName := b!"log in"
        columns := [col b!"auth" b!"log in" b!"mail" b!"VARCHAR(50)" true]
        constraints := [pk b!"auth" b!"log in" (p b!"login") [b!"mail"],
          fk b!"auth" b!"log in" b!"login_fk" b!"mail" b!"shop" b!"customer" b!"mail"] }] },
   { schemaName := b!"shop", tables := [
      { tableSchema := b!"shop", tableName := b!"order"
        columns := [col b!"shop" b!"order" b!"id" b!"INT" true,
          col b!"shop" b!"order" b!"customer" b!"INT",
          { col b!"shop" b!"order" b!"price" b!"NUMERIC(10,2)" true with columnDefault := b!"0" }]
        constraints := [pk b!"shop" b!"order" (p b!"order") [b!"id"],
          fk b!"shop" b!"order" b!"order_fk" b!"customer" b!"shop" b!"customer" b!"id",
          { pk b!"shop" b!"order" b!"order_check" [] with
            constraintType := b!"CHECK", checkExpr := b!"price >= 0" }]
        indexes := x },
      { tableSchema := b!"shop", tableName := b!"customer"
        columns := [col b!"shop" b!"customer" b!"id" b!"INT" true,
          col b!"shop" b!"customer" b!"mail" b!"VARCHAR(50)"]
        constraints := [pk b!"shop" b!"customer" (p b!"customer") [b!"id"]]
        indexes := y }] }]

/-! ## Samples -/

/-- Postgres tells the definitions of indexes. -/
def pg : Catalog :=
  { dialect := b!"postgres", currentSchema := b!"shop", defaultCollation := b!"C"
    schemas := tabs (fun t => t ++ b!"_pkey")
      [{ idx b!"shop" b!"order" b!"order_idx" [b!"customer"] with
          sql := b!"CREATE INDEX order_idx ON shop.\"order\" USING btree (customer);" }]
      [{ idx b!"shop" b!"customer" b!"mail_idx" [b!"mail"] true with
          sql := b!"CREATE UNIQUE INDEX mail_idx ON shop.customer USING btree (mail);" }] }

theorem pg_dumpable : Dumpable .postgres (keywords .postgres) (PlainName .postgres) pg := by
  decide +kernel

example (E : Str → Bool) : ∃ s1 s2 s3,
    PgText.runScript (keywords .postgres) b!"shop" (Dump.dumpSchema .postgres pg) = some s1 ∧
    PgText.runScript (keywords .postgres) b!"shop" (Dump.dumpIndexes .postgres pg) = some s2 ∧
    PgText.runScript (keywords .postgres) b!"shop" (Dump.dumpConstraints .postgres pg) = some s3 ∧
    PgSpec.Runs (empty E) (s1 ++ s2 ++ s3) (withSchemas E (dbOf .postgres (keywords .postgres) pg)) :=
  pg_dump_load_partial pg_dumpable (by decide +kernel) (ordered_of (by decide +kernel))
    (PgSpec.consistent_of (listed _ _ _) (by decide +kernel))
    (keysNotNull_of (listed _ _ _) (by decide +kernel)) (by decide +kernel) E

/-- The files of the sample. -/
example : Dump.dumpConstraints .postgres pg = b!"-- auth.log in
ALTER TABLE auth.\"log in\" ADD CONSTRAINT login_pkey PRIMARY KEY (mail);

-- auth.log in
ALTER TABLE auth.\"log in\" ADD CONSTRAINT login_fk FOREIGN KEY (mail) REFERENCES customer (mail) ON DELETE CASCADE;

-- order
ALTER TABLE \"order\" ADD CONSTRAINT order_pkey PRIMARY KEY (id);
ALTER TABLE \"order\" ADD CONSTRAINT order_check CHECK (price >= 0);

-- customer
ALTER TABLE customer ADD CONSTRAINT customer_pkey PRIMARY KEY (id);

-- order
ALTER TABLE \"order\" ADD CONSTRAINT order_fk FOREIGN KEY (customer) REFERENCES customer (id) ON DELETE CASCADE;

-- customer
" := by decide +kernel

def ms : Catalog :=
  { dialect := b!"sqlserver", currentSchema := b!"shop", defaultCollation := b!"Latin1_General_CI_AS"
    schemas := tabs (fun t => t ++ b!"_pkey") [idx b!"shop" b!"order" b!"order_idx" [b!"customer"]]
      [idx b!"shop" b!"customer" b!"mail_idx" [b!"mail"] true] }

theorem ms_dumpable : Dumpable .sqlserver (keywords .sqlserver) MsSpec.SchemaName ms := by
  decide +kernel

example (N : MsSpec.Numbers) (E : Str → Bool) : ∃ s1 s2 s3,
    MsText.runScript (keywords .sqlserver) b!"shop" (Dump.dumpSchema .sqlserver ms) = some s1 ∧
    MsText.runScript (keywords .sqlserver) b!"shop" (Dump.dumpIndexes .sqlserver ms) = some s2 ∧
    MsText.runScript (keywords .sqlserver) b!"shop" (Dump.dumpConstraints .sqlserver ms) = some s3 ∧
    MsSpec.Runs N (empty E) (s1 ++ s2 ++ s3) (withSchemas E (dbOf .sqlserver (keywords .sqlserver) ms)) :=
  ms_dump_load_partial ms_dumpable (by decide +kernel) (ordered_of (by decide +kernel))
    (MsSpec.consistent_of (listed _ _ _) (by decide +kernel))
    (keysNotNull_of (listed _ _ _) (by decide +kernel)) (by decide +kernel) (by decide +kernel) N E

def my : Catalog :=
  { dialect := b!"mysql", currentSchema := b!"shop", defaultCollation := b!"utf8mb4_bin"
    schemas := tabs (fun _ => b!"PRIMARY") [idx b!"shop" b!"order" b!"order_idx" [b!"customer"]]
      [idx b!"shop" b!"customer" b!"mail_idx" [b!"mail"] true] }

theorem my_dumpable : Dumpable .mysql (keywords .mysql) (PlainName .mysql) my := by
  decide +kernel

example (E : Str → Bool) : ∃ s1 s2 s3,
    DdlText.runScript .mysql (keywords .mysql) b!"shop" (Dump.dumpSchema .mysql my) = some s1 ∧
    DdlText.runScript .mysql (keywords .mysql) b!"shop" (Dump.dumpIndexes .mysql my) = some s2 ∧
    DdlText.runScript .mysql (keywords .mysql) b!"shop" (Dump.dumpConstraints .mysql my) = some s3 ∧
    Runs (empty E) (s1 ++ s2 ++ s3) (withSchemas E (dbOf .mysql (keywords .mysql) my)) :=
  mysql_dump_load_partial my_dumpable (by decide +kernel) (ordered_of (by decide +kernel))
    (my_consistent_of (cols := [b!"id", b!"mail"]) (listed _ _ _) (by decide +kernel))
    (by decide +kernel) E

/-! ## Refutations -/

/-- A statement that is refused. -/
theorem not_runs {db db' : Db} {a b : List PgText.Stmt} {st : PgText.Stmt}
    (h : ¬ PgSpec.Accepts (a.foldl PgSpec.effect db) st) : ¬ PgSpec.Runs db (a ++ st :: b) db' := by
  induction a generalizing db with
  | nil => exact fun hr => h hr.1
  | cons x a ih => exact fun hr => ih h hr.2

/-- A table of the first schema references the primary key of a table of the second one. -/
def cross : Catalog :=
  { dialect := b!"postgres", currentSchema := b!"public", defaultCollation := b!"C"
    schemas := [
      { schemaName := b!"a", tables := [
        { tableSchema := b!"a", tableName := b!"t", columns := [col b!"a" b!"t" b!"r" b!"INT"]
          constraints := [fk b!"a" b!"t" b!"t_fk" b!"r" b!"b" b!"u" b!"id"] }] },
      { schemaName := b!"b", tables := [
        { tableSchema := b!"b", tableName := b!"u", columns := [col b!"b" b!"u" b!"id" b!"INT" true]
          constraints := [pk b!"b" b!"u" b!"u_pkey" [b!"id"]] }] }] }

/-- C95 fails: Postgres refuses constraints.sql if a table references a table of a schema that comes
later in the dump.  The foreign keys of a schema are written before the primary keys of the next. -/
theorem pg_dump_cross_schema_refuted : ∃ c : Catalog,
    Dumpable .postgres (keywords .postgres) (PlainName .postgres) c ∧ NoTypes c ∧
    PgSpec.Consistent (dbOf .postgres (keywords .postgres) c) ∧
    KeysNotNull (dbOf .postgres (keywords .postgres) c) ∧
    (∀ s ∈ c.schemas, ∀ t ∈ s.tables, ∀ x ∈ t.columns,
      PgSpec.addable (colOf .postgres c.defaultCollation false x) = true) ∧
    ∀ E, ¬ ∃ s1 s2 s3 db',
      PgText.runScript (keywords .postgres) c.currentSchema (Dump.dumpSchema .postgres c) = some s1 ∧
      PgText.runScript (keywords .postgres) c.currentSchema (Dump.dumpIndexes .postgres c) = some s2 ∧
      PgText.runScript (keywords .postgres) c.currentSchema (Dump.dumpConstraints .postgres c) = some s3 ∧
      PgSpec.Runs (empty E) (s1 ++ s2 ++ s3) db' := by
  refine ⟨cross, by decide +kernel, by decide +kernel, PgSpec.consistent_of (listed _ _ _) (by decide +kernel),
    keysNotNull_of (listed _ _ _) (by decide +kernel), by decide +kernel, ?_⟩
  rintro E ⟨s1, s2, s3, db', h1, h2, h3, hr⟩
  let f := (cross.schemas.flatMap fun s => s.tables.flatMap fun t => t.constraints)[0]'(by decide)
  let u := cross.schemas[1].tables[0]
  let t := cross.schemas[0].tables[0]
  have e1 : PgText.runScript (keywords .postgres) b!"public" (Dump.dumpSchema .postgres cross) = some
      [.base (.createSchema b!"a"), .base (.createSchema b!"b"),
       .base (.createTable (some b!"a", b!"t") [.col (colOf .postgres b!"C" false (t.columns[0]))]),
       .base (.createTable (some b!"b", b!"u") [.col (colOf .postgres b!"C" false (u.columns[0]))])] := by
    decide +kernel
  have e2 : PgText.runScript (keywords .postgres) b!"public" (Dump.dumpIndexes .postgres cross) =
    some [] := by decide +kernel
  have e3 : PgText.runScript (keywords .postgres) b!"public" (Dump.dumpConstraints .postgres cross) = some
      [.alter (some b!"a", b!"t") [.addConstraint (conOf .postgres b!"public" f)],
       .alter (some b!"b", b!"u") [.addConstraint (conOf .postgres b!"public" (u.constraints[0]))]] := by
    decide +kernel
  have h1 := Option.some.inj (e1.symm.trans h1)
  have h2 := Option.some.inj (e2.symm.trans h2)
  have h3 := Option.some.inj (e3.symm.trans h3)
  subst h1 h2 h3
  rw [List.append_nil] at hr
  refine not_runs ?_ hr
  rintro ⟨⟨t, -, hok⟩, -⟩
  obtain ⟨-, r, hr, -, cs, -, hk⟩ := hok.foreign _ _ rfl
  have hn : (∀ n, r.con n = none) ∧ ∀ n, r.idx n = none := by
    have := Option.some.inj hr
    subst this
    exact ⟨fun _ => rfl, fun _ => rfl⟩
  rcases hk with ⟨n, c, hc, -⟩ | ⟨n, x, hx, -⟩
  · rw [hn.1 n] at hc; cases hc
  · rw [hn.2 n] at hx; cases hx

/-- A table with a name of two lines. -/
def lines : Table :=
  { tableSchema := b!"a", tableName := b!"t\nDROP SCHEMA IF EXISTS a CASCADE; --"
    columns := [col b!"a" b!"t\nDROP SCHEMA IF EXISTS a CASCADE; --" b!"id" b!"INT"] }

/-- C95 fails: the name of a table is written into a comment, and what follows a line break in it is a
statement. -/
theorem pg_dump_line_break_refuted : ∃ c : Catalog, CatalogSpec.Ok c ∧
    (∀ s ∈ c.schemas, ∀ t ∈ s.tables, TableText .postgres c.currentSchema c.defaultCollation t) ∧
    PgSpec.Consistent (dbOf .postgres (keywords .postgres) c) ∧
    ((dbOf .postgres (keywords .postgres) c).table (b!"a", b!"t\nDROP SCHEMA IF EXISTS a CASCADE; --")).isSome ∧
    PgText.runScript (keywords .postgres) c.currentSchema (Dump.dumpIndexes .postgres c) =
      some [.dropSchemaCascade b!"a"] := by
  refine ⟨{ dialect := b!"postgres", currentSchema := b!"public", defaultCollation := b!"C"
            schemas := [{ schemaName := b!"a", tables := [lines] }] }, by decide +kernel,
    by decide +kernel, PgSpec.consistent_of (listed _ _ _) (by decide +kernel), by decide +kernel,
    by decide +kernel⟩

/-- C95 fails: a foreign key that is not valid is dumped like one that is, so that it cannot be told what
the database was, and rows that do not meet the foreign key are refused. -/
theorem pg_dump_not_valid_refuted (cur : Str) : ∃ x y : Constraint,
    conOf .postgres cur x ≠ conOf .postgres cur y ∧
    Dump.addConstraint .postgres cur x = Dump.addConstraint .postgres cur y := by
  refine ⟨fk b!"a" b!"t" b!"t_fk" b!"r" b!"b" b!"u" b!"id",
    { fk b!"a" b!"t" b!"t_fk" b!"r" b!"b" b!"u" b!"id" with isNotValid := true }, ?_, rfl⟩
  intro h
  have := congrArg (fun c : Con => c.notValid) h
  cases this

end DumpSpec.Shop
