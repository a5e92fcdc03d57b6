import Verif.Spec.Structs

/-!
# Checking that structs can describe a database

A computable condition that implies `Fits`, for the examples.
-/

namespace Sqddl.Structs
open Go CatalogSpec StructSpec

/-- no braces and no backquote -/
def PlainTag (s : Str) : Prop := ∀ c ∈ s, c ∉ ['{', '}', '`']

instance (s : Str) : Decidable (PlainTag s) := by unfold PlainTag; infer_instance

theorem PlainTag.tagValue {s : Str} (h : PlainTag s) : TagValue s := by
  refine ⟨⟨ModifierSpec.Braced.plain fun c hc => ?_, fun _ hh => ?_⟩, fun hh => ?_⟩
  · have := h c hc; simp_all
  · have := h '{' (List.mem_of_mem_head? hh); simp at this
  · have := h '`' hh; simp at this

instance (s : Str) : Decidable (GoName s) := by unfold GoName; infer_instance

/-- for `TypeFits` -/
def TypeCheck (d : Dialect) (c : Column) : Prop :=
  c.domainName = [] ∧ PlainTag c.columnType ∧ (c.isEnum = true → d = .postgres ∧ c.columnType ≠ []) ∧
  (normalizeColumnType d c.columnType).isSome = true ∧
  (c.columnType = b!"TIMESTAMP" → d = .postgres ∨ d = .sqlserver) ∧
  (∀ r ∈ (normalizeColumnType d c.columnType).toList,
    r.1 ∈ [b!"VARBINARY", b!"BINARY", b!"NVARCHAR", b!"VARCHAR", b!"CHAR"] → r.2.1 ≠ []) ∧
  (c.isAutoincrement = true → d = .mysql ∨ (d = .sqlite ∧ c.columnType = b!"INTEGER"))

instance (d : Dialect) (c : Column) : Decidable (TypeCheck d c) := by
  unfold TypeCheck; infer_instance

theorem TypeCheck.fits {d : Dialect} {c : Column} (h : TypeCheck d c) : TypeFits d c := by
  obtain ⟨h1, h2, h3, h4, h5, h6, h7⟩ := h
  exact ⟨h1, h2.tagValue, h3, h4, h5, fun r hr => h6 r (by rw [hr]; simp), h7⟩

/-- for `DefaultFits` -/
def DefaultCheck (isFloat : Str → Bool) (d : Dialect) (s : Str) : Prop :=
  s = [] ∨
  (d = .postgres ∧ PlainTag s ∧ ¬ (s.head? = some '(' ∧ s.getLast? = some ')')) ∨
  (d ≠ .postgres ∧ PlainTag s ∧ Postgres.isLiteral isFloat s = true ∧
    ¬ (s.head? = some '(' ∧ s.getLast? = some ')') ∧
    (d = .sqlserver → toUpper s ∉ [b!"TRUE", b!"FALSE"])) ∨
  (d ≠ .postgres ∧ s = '(' :: s.tail.dropLast ++ [')'] ∧ s.tail.dropLast ≠ [] ∧
    PlainTag s.tail.dropLast ∧ Postgres.isLiteral isFloat s.tail.dropLast = false ∧
    ¬ (s.tail.dropLast.head? = some '(' ∧ s.tail.dropLast.getLast? = some ')'))

instance (isFloat : Str → Bool) (d : Dialect) (s : Str) : Decidable (DefaultCheck isFloat d s) := by
  unfold DefaultCheck; infer_instance

theorem DefaultCheck.fits {isFloat : Str → Bool} {d : Dialect} {s : Str}
    (h : DefaultCheck isFloat d s) : DefaultFits isFloat d s := by
  rcases h with h | ⟨h1, h2, h3⟩ | ⟨h1, h2, h3⟩ | ⟨h1, h2, h3, h4, h5⟩
  · exact .inl h
  · exact .inr (.inl ⟨h1, h2.tagValue, h3⟩)
  · exact .inr (.inr (.inl ⟨h1, h2.tagValue, h3⟩))
  · exact .inr (.inr (.inr ⟨h1, _, h2, h3, h4.tagValue, h5⟩))

/-- for `ColumnFits` -/
def ColumnCheck (isFloat : Str → Bool) (d : Dialect) (c : Column) : Prop :=
  c.ignore = false ∧ GoName c.columnName ∧ TypeCheck d c ∧ DefaultCheck isFloat d c.columnDefault ∧
  (c.columnIdentity = [] ∨
    (d = .postgres ∧ c.columnIdentity ∈
      [b!"GENERATED BY DEFAULT AS IDENTITY", b!"GENERATED ALWAYS AS IDENTITY"]) ∨
    (d = .sqlserver ∧ c.columnIdentity = b!"IDENTITY")) ∧
  (c.onUpdateCurrentTimestamp = true → d = .mysql) ∧ PlainTag c.collationName

instance (isFloat : Str → Bool) (d : Dialect) (c : Column) : Decidable (ColumnCheck isFloat d c) := by
  unfold ColumnCheck; infer_instance

theorem ColumnCheck.fits {isFloat : Str → Bool} {d : Dialect} {c : Column}
    (h : ColumnCheck isFloat d c) : ColumnFits isFloat d c := by
  obtain ⟨h1, h2, h3, h4, h5, h6, h7⟩ := h
  exact ⟨h1, h2, h3.fits, h4.fits, h5, h6, h7.tagValue⟩

/-- for `RefFits` -/
def RefCheck (d : Dialect) (cat : Catalog) (k : Constraint) : Prop :=
  (∃ s ∈ cat.schemas, s.schemaName = resolve cat.currentSchema k.referencesSchema ∧
    ∃ t ∈ s.tables, t.tableName = k.referencesTable ∧
      ∀ n ∈ k.referencesColumns, n ∈ t.columns.map (·.columnName)) ∧
  k.referencesColumns.length = k.columns.length ∧
  (resolve cat.currentSchema k.referencesSchema ≠ cat.currentSchema →
    k.columns ≠ k.referencesColumns) ∧
  k.updateRule ∈ [[], b!"NO ACTION", b!"RESTRICT", b!"CASCADE", b!"SET NULL", b!"SET DEFAULT"] ∧
  k.deleteRule ∈ [[], b!"NO ACTION", b!"RESTRICT", b!"CASCADE", b!"SET NULL", b!"SET DEFAULT"] ∧
  (d = .sqlserver → k.updateRule ≠ b!"RESTRICT" ∧ k.deleteRule ≠ b!"RESTRICT")

instance (d : Dialect) (cat : Catalog) (k : Constraint) : Decidable (RefCheck d cat k) := by
  unfold RefCheck; infer_instance

/-- for `KeyFits` -/
def KeyCheck (d : Dialect) (cat : Catalog) (t : Table) (k : Constraint) : Prop :=
  (k.columns ≠ [] ∧ ∀ n ∈ k.columns, n ∈ t.columns.map (·.columnName)) ∧
  (k.constraintName =
    if d = .mysql ∧ k.constraintType = PRIMARY_KEY then b!"PRIMARY"
    else nameFor (suffixOf k.constraintType) t.tableName k.columns) ∧
  (k.isDeferrable = true → d = .sqlite ∨ d = .postgres) ∧
  (k.isInitiallyDeferred = true → k.isDeferrable = true) ∧
  (k.constraintType = FOREIGN_KEY → RefCheck d cat k) ∧
  (k.constraintType ≠ FOREIGN_KEY → k.referencesSchema = [] ∧ k.referencesTable = [] ∧
    k.referencesColumns = [] ∧ k.updateRule = [] ∧ k.deleteRule = [])

instance (d : Dialect) (cat : Catalog) (t : Table) (k : Constraint) :
    Decidable (KeyCheck d cat t k) := by
  unfold KeyCheck; infer_instance

theorem KeyCheck.fits {d : Dialect} {cat : Catalog} {t : Table} {k : Constraint}
    (h : KeyCheck d cat t k) : KeyFits d cat t k := by
  obtain ⟨h1, h2, h3, h4, h5, h6⟩ := h
  refine ⟨h1, h2, h3, h4, fun hk => ?_, h6⟩
  obtain ⟨a, b, c, e, f, g⟩ := h5 hk
  exact ⟨a, b, c, e, f, g⟩

/-- for `IndexFits` -/
def IndexCheck (d : Dialect) (t : Table) (x : Index) : Prop :=
  x.ignore = false ∧ (x.columns ≠ [] ∧ ∀ n ∈ x.columns, n ∈ t.columns.map (·.columnName)) ∧
  x.indexName = nameFor b!"_idx" t.tableName x.columns ∧ isSimpleIndex x = true ∧
  (x.indexType ≠ [] → toUpper x.indexType ≠ b!"BTREE" →
    PlainTag x.indexType ∧ (d = .postgres ∨ d = .mysql))

instance (d : Dialect) (t : Table) (x : Index) : Decidable (IndexCheck d t x) := by
  unfold IndexCheck; infer_instance

theorem IndexCheck.fits {d : Dialect} {t : Table} {x : Index} (h : IndexCheck d t x) :
    IndexFits d t x := by
  obtain ⟨h1, h2, h3, h4, h5⟩ := h
  exact ⟨h1, h2, h3, h4, fun a b => ⟨(h5 a b).1.tagValue, (h5 a b).2⟩⟩

/-- for `TableFits` -/
def TableCheck (isFloat : Str → Bool) (d : Dialect) (cat : Catalog) (t : Table) : Prop :=
  t.ignore = false ∧
  (d = .sqlite → t.isVirtual = false ∧ hasPrefix t.sql b!"CREATE VIRTUAL TABLE" = false) ∧
  GoName t.tableName ∧
  ((t.tableSchema = [] → cat.currentSchema = []) ∧
    ∀ c ∈ t.tableSchema, c ∉ ['.', '`', '{', '}']) ∧
  t.columns ≠ [] ∧ (∀ c ∈ t.columns, ColumnCheck isFloat d c) ∧
  (∀ k ∈ t.constraints, k.ignore = false) ∧ (∀ k ∈ keysOf t, KeyCheck d cat t k) ∧
  (∀ x ∈ t.indexes, IndexCheck d t x) ∧
  (∀ k ∈ t.constraints, ∀ l ∈ t.constraints, k.constraintType = PRIMARY_KEY →
    l.constraintType = PRIMARY_KEY → k = l) ∧
  (∀ k ∈ t.constraints, k.constraintType = PRIMARY_KEY → ∀ c ∈ t.columns, c.columnName ∈ k.columns →
    c.isNotNull = true ∨ (d = .sqlite ∧ k.columns.length = 1 ∧ c.columnType = b!"INTEGER")) ∧
  (d = .sqlite → ∀ k ∈ t.constraints, k.constraintType = PRIMARY_KEY → ∀ c ∈ t.columns,
    k.columns = [c.columnName] →
    c.columnType ≠ b!"INT" ∧ (toUpper c.columnType = b!"INTEGER" → c.columnType = b!"INTEGER"))

set_option synthInstance.maxSize 2000 in
set_option synthInstance.maxHeartbeats 400000 in
instance (isFloat : Str → Bool) (d : Dialect) (cat : Catalog) (t : Table) :
    Decidable (TableCheck isFloat d cat t) := by
  unfold TableCheck; infer_instance

theorem TableCheck.fits {isFloat : Str → Bool} {d : Dialect} {cat : Catalog} {t : Table}
    (h : TableCheck isFloat d cat t) : TableFits isFloat d cat t := by
  obtain ⟨h1, h2, h3, h4, h5, h6, h7, h8, h9, h10, h11, h12⟩ := h
  refine ⟨h1, h2, h3, ?_, h5, fun c hc => (h6 c hc).fits, h7, fun k hk => (h8 k hk).fits,
    fun x hx => (h9 x hx).fits, h10, h11, h12⟩
  split
  · exact h4.1 ‹_›
  · exact h4.2

/-- for `Fits` -/
def Check (isFloat : Str → Bool) (cat : Catalog) : Prop :=
  Ok cat ∧ (∀ s ∈ cat.schemas, s.ignore = false) ∧
  ∀ s ∈ cat.schemas, ∀ t ∈ s.tables, TableCheck isFloat (dialectOf cat.dialect) cat t

instance (isFloat : Str → Bool) (cat : Catalog) : Decidable (Check isFloat cat) := by
  unfold Check; infer_instance

theorem Check.fits {isFloat : Str → Bool} {cat : Catalog} (h : Check isFloat cat) :
    Fits isFloat cat :=
  ⟨h.1, h.2.1, fun s hs t ht => (h.2.2 s hs t ht).fits⟩

end Sqddl.Structs
