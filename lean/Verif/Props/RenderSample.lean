import Verif.Props.RenderAlter
import Verif.Lemmas.DdlDecide

/-!
# DDL that is read back, and DDL that is not: samples (C66)
-/

namespace Sqddl.Render.Samples
open SqlSpec Sqddl DdlText CatalogSpec

/-! ## Definitions that meet the conditions -/

/-- A Postgres column with most attributes. -/
def person : Column :=
  { tableSchema := b!"app", tableName := b!"pet", columnName := b!"Owner", columnType := b!"varchar(20)[]",
    isNotNull := true, isUnique := true, columnDefault := b!"'{a,\"b;c\"}'::text[]",
    collationName := b!"de \"x\"", referencesSchema := b!"hr", referencesTable := b!"user",
    referencesColumn := b!"id", deleteRule := b!"SET NULL", isDeferrable := true,
    isInitiallyDeferred := true }

example : columnDef .postgres [] person true = b!"\"Owner\" VARCHAR(20)[] NOT NULL UNIQUE DEFAULT '{a,\"b;c\"}'::text[] COLLATE \"de \"\"x\"\"\" REFERENCES hr.\"user\" (id) ON DELETE SET NULL DEFERRABLE INITIALLY DEFERRED" := by
  decide +kernel

example : (lex .postgres (columnDef .postgres [] person true)).bind
      (readCol .postgres (keywords .postgres)) = some (colOf .postgres [] true person) :=
  columnDef_reads_back _ _ _ _ (by decide +kernel)

example : ColumnOk .sqlite [] false { columnName := b!"id", columnType := b!"INTEGER", isPrimaryKey := true, isAutoincrement := true } := by
  decide +kernel
example : ColumnOk .sqlserver [] false { columnName := b!"total", columnType := b!"INT", generatedExpr := b!"(a + (b * 2))", generatedExprStored := true } := by
  decide +kernel
example : ColumnOk .mysql b!"utf8mb4_bin" false { columnName := b!"at", columnType := b!"timestamp(6)", columnDefault := b!"CURRENT_TIMESTAMP", onUpdateCurrentTimestamp := true } := by
  decide +kernel

/-- A foreign key into another schema. -/
def fkey : Constraint :=
  { tableSchema := b!"app", tableName := b!"pet", constraintName := b!"pet owner",
    constraintType := b!"FOREIGN KEY", columns := [b!"a", b!"order"], referencesSchema := b!"hr",
    referencesTable := b!"user", referencesColumns := [b!"x", b!"y"], updateRule := b!"CASCADE",
    deleteRule := b!"NO ACTION" }

example (d : Dialect) (hd : d = .postgres ∨ d = .mysql ∨ d = .sqlserver) :
    ((lex d (constraintDef d b!"app" fkey)).bind (readCon d (keywords d))).map
      (Con.resolve d b!"app" b!"app") = some (conOf d b!"app" fkey) := by
  rcases hd with rfl | rfl | rfl
  · exact constraintDef_reads_back .postgres b!"app" fkey (by decide +kernel)
  · exact constraintDef_reads_back .mysql b!"app" fkey (by decide +kernel)
  · exact constraintDef_reads_back .sqlserver b!"app" fkey (by decide +kernel)

example : ConstraintOk .postgres b!"app" { tableSchema := b!"app", tableName := b!"booking", constraintName := b!"booking_excl", constraintType := b!"EXCLUDE", columns := [b!"room", b!"tsrange(a, b)"], exclusionOperators := [b!"=", b!"&&"], exclusionIndexType := b!"gist", exclusionPredicate := b!"room > 0", isDeferrable := true } := by
  decide +kernel
example : ConstraintOk .sqlite [] { tableName := b!"t", constraintName := b!"c", constraintType := b!"CHECK", checkExpr := b!"a IN (';', ')')" } := by
  decide +kernel

/-- An index with an expression and a descending column. -/
def index : Index :=
  { tableSchema := b!"app", tableName := b!"pet", indexName := b!"pet idx", indexType := b!"BTREE",
    isUnique := true, columns := [b!"name", b!"(lower(name))"], descending := [true, false],
    includeColumns := [b!"id"], predicate := b!"name <> ';'" }

example (d : Dialect) (hd : d = .sqlite ∨ d = .postgres ∨ d = .mysql ∨ d = .sqlserver) (conc : Bool) :
    IsStmt d b!"app" (createIndex d b!"app" index conc) (createIndexOf d b!"app" conc index) := by
  rcases hd with rfl | rfl | rfl | rfl <;>
    exact createIndex_reads_back _ _ _ _ rfl (by decide +kernel)

example : (lex .mysql (indexDef .mysql b!"app" index false true)).bind (readIdx .mysql (keywords .mysql) true) =
    some (idxOf .mysql b!"app" false true index) :=
  indexDef_reads_back _ _ _ _ _ (by decide +kernel)

/-- A table with some of it. -/
def pet : Table :=
  { tableSchema := b!"app", tableName := b!"pet"
    columns := [{ columnName := b!"a", columnType := b!"INT", isNotNull := true },
      { columnName := b!"order", columnType := b!"INT" },
      { columnName := b!"hidden", columnType := b!"INT", ignore := true }]
    constraints := [{ fkey with constraintName := b!"pet_pkey", constraintType := b!"PRIMARY KEY" }, fkey,
      { fkey with constraintName := b!"c", constraintType := b!"CHECK", checkExpr := b!"a > 0" }] }

example (d : Dialect) (hd : d = .postgres ∨ d = .mysql ∨ d = .sqlserver) (all : Bool) :
    IsStmt d b!"app" (createTable d b!"app" [] pet all) (createTableOf d b!"app" [] all pet) := by
  rcases hd with rfl | rfl | rfl <;>
    exact createTable_reads_back _ _ _ _ _ (by decide +kernel)

example (d : Dialect) : IsStmt d b!"app" (Files.dropTable d b!"app" pet)
    (.dropTable (fullName b!"app" b!"app" b!"pet")) :=
  dropTable_reads_back d b!"app" pet (fun _ => by cases d <;> decide +kernel)
    (by cases d <;> decide +kernel)
example : IsStmt .postgres [] (createSchema .postgres b!"my schema") (.createSchema b!"my schema") :=
  createSchema_reads_back _ _ _ (Or.inl rfl) (by decide +kernel)
example : IsStmt .mysql [] (Files.dropSchema .mysql b!"my`schema") (.dropSchema b!"my`schema") :=
  dropSchema_reads_back _ _ _ (by decide +kernel)
example : IsStmt .mysql b!"app" (Mysql.dropFkey b!"app" fkey) (dropConstraintOf b!"app" fkey) :=
  mysql_dropFkey_reads_back _ _ (fun _ => by decide +kernel) (by decide +kernel) (by decide +kernel)
example : IsStmt .mysql b!"hr" (Mysql.addFkey b!"hr" fkey) (addConstraintOf .mysql b!"hr" fkey) :=
  mysql_addFkey_reads_back _ _ (fun _ => by decide +kernel) (by decide +kernel) (by decide +kernel)

/-! ## Definitions that are not read back -/

/-- The column is read back as itself. -/
def ColBack (d : Dialect) (c : Column) : Prop :=
  (lex d (columnDef d [] c false)).bind (readCol d (keywords d)) = some (colOf d [] false c)

/-- The constraint is read back as itself. -/
def ConBack (d : Dialect) (c : Constraint) : Prop :=
  ((lex d (constraintDef d [] c)).bind (readCon d (keywords d))).map (Con.resolve d [] []) =
    some (conOf d [] c)

/-- The index is read back as itself. -/
def IdxBack (d : Dialect) (inline : Bool) (x : Index) : Prop :=
  (lex d (indexDef d [] x false inline)).bind (readIdx d (keywords d) inline) =
    some (idxOf d [] false inline x)

instance (d : Dialect) (c : Column) : Decidable (ColBack d c) := by unfold ColBack; infer_instance
instance (d : Dialect) (c : Constraint) : Decidable (ConBack d c) := by unfold ConBack; infer_instance
instance (d : Dialect) (b : Bool) (x : Index) : Decidable (IdxBack d b x) := by
  unfold IdxBack; infer_instance

/-- C66: the labels of a MySQL ENUM are put into upper case. -/
theorem enum_labels_refuted : ∃ c : Column, c.columnType = b!"enum('small','large')" ∧
    columnDef .mysql [] c false = b!"size ENUM('SMALL','LARGE')" ∧ ¬ ColBack .mysql c :=
  ⟨{ columnName := b!"size", columnType := b!"enum('small','large')" }, by decide +kernel⟩

/-- C66: an expression that begins and ends with a bracket is taken to be in brackets, and the
statement is malformed. -/
theorem bracketed_generated_refuted : ∃ c : Column, c.generatedExpr = b!"(a + 1) * (b + 2)" ∧
    columnDef .postgres [] c false =
      b!"s INT GENERATED ALWAYS AS (a + 1) * (b + 2) STORED" ∧
    (lex .postgres (columnDef .postgres [] c false)).bind (readCol .postgres (keywords .postgres)) = none :=
  ⟨{ columnName := b!"s", columnType := b!"INT", generatedExpr := b!"(a + 1) * (b + 2)", generatedExprStored := true },
    by decide +kernel⟩

/-- C66: a generated column of MySQL that is NOT NULL gives a malformed statement: NOT NULL must be
behind the expression. -/
theorem mysql_generated_notnull_refuted : ∃ c : Column, c.isNotNull = true ∧
    columnDef .mysql [] c false = b!"s INT NOT NULL AS (a + 1)" ∧
    (lex .mysql (columnDef .mysql [] c false)).bind (readCol .mysql (keywords .mysql)) = none :=
  ⟨{ columnName := b!"s", columnType := b!"INT", isNotNull := true, generatedExpr := b!"a + 1" },
    by decide +kernel⟩

/-- C66: a virtual column of SQLite is written as a stored one. -/
theorem sqlite_virtual_refuted : ∃ c : Column, c.generatedExprStored = false ∧
    columnDef .sqlite [] c false = b!"s INT GENERATED ALWAYS AS (a + 1) STORED" ∧
    ¬ ColBack .sqlite c :=
  ⟨{ columnName := b!"s", columnType := b!"INT", generatedExpr := b!"a + 1" }, by decide +kernel⟩

/-- C66: MATCH FULL of a foreign key is not written. -/
theorem match_full_refuted : ∃ c : Constraint, c.matchOption = b!"MATCH FULL" ∧
    constraintDef .postgres [] c = b!"CONSTRAINT f FOREIGN KEY (a) REFERENCES t (b)" ∧
    ¬ ConBack .postgres c :=
  ⟨{ constraintName := b!"f", constraintType := b!"FOREIGN KEY", columns := [b!"a"],
     referencesTable := b!"t", referencesColumns := [b!"b"], matchOption := b!"MATCH FULL" },
    by decide +kernel⟩

/-- C66: NOT VALID is not written. -/
theorem not_valid_refuted : ∃ c : Constraint, c.isNotValid = true ∧
    constraintDef .postgres [] c = b!"CONSTRAINT f CHECK (a > 0)" ∧ ¬ ConBack .postgres c :=
  ⟨{ constraintName := b!"f", constraintType := b!"CHECK", checkExpr := b!"a > 0", isNotValid := true },
    by decide +kernel⟩

/-- C66: the method of an index that is added by ALTER TABLE on MySQL is written without USING, which
is malformed. -/
theorem mysql_inline_hash_refuted : ∃ x : Index, x.indexType = b!"HASH" ∧
    indexDef .mysql [] x false true = b!"INDEX i HASH (a)" ∧
    (lex .mysql (indexDef .mysql [] x false true)).bind (readIdx .mysql (keywords .mysql) true) = none ∧
    IdxBack .mysql false x :=
  ⟨{ indexName := b!"i", tableName := b!"t", indexType := b!"HASH", columns := [b!"a"] }, by decide +kernel⟩

/-- C66: a SPATIAL index of MySQL is written as USING SPATIAL, and an index called `spatial` as a
SPATIAL index if its type is not mentioned otherwise. -/
theorem mysql_spatial_refuted : (∃ x : Index, x.indexType = b!"SPATIAL" ∧
    indexDef .mysql [] x false false = b!"INDEX i USING SPATIAL ON t (a)" ∧ ¬ IdxBack .mysql false x) ∧
    ∃ x : Index, x.indexName = b!"spatial" ∧ x.indexType = b!"HASH" ∧
      indexDef .mysql [] x false false = b!"HASH INDEX `spatial` ON t (a)" ∧ ¬ IdxBack .mysql false x :=
  ⟨⟨{ indexName := b!"i", tableName := b!"t", indexType := b!"SPATIAL", columns := [b!"a"] }, by decide +kernel⟩,
   ⟨{ indexName := b!"spatial", tableName := b!"t", indexType := b!"HASH", columns := [b!"a"] }, by decide +kernel⟩⟩

end Sqddl.Render.Samples
