import Verif.Spec.Converge
import Verif.Lemmas.Lex

/-!
# Conditions on catalogs can be checked

Decision procedures for the conditions of the theorems about DDL, used in examples only.
-/

namespace DdlText
open SqlSpec Sqddl CatalogSpec

instance (d : Dialect) (s : Str) : Decidable (ClauseText d s) :=
  decidable_of_iff (Fragment d s ∧ flat 0 (toks d s) = true ∧ quiet stops 0 (toks d s) = true)
    ⟨fun ⟨a, b, c⟩ => ⟨a, b, c⟩, fun ⟨a, b, c⟩ => ⟨a, b, c⟩⟩

instance (d : Dialect) (s : Str) : Decidable (∃ i, inBrackets (toks d s) = some (i, [])) :=
  decidable_of_iff ((inBrackets (toks d s)).any (fun p => p.2.isEmpty) = true) (by
    cases inBrackets (toks d s) with
    | none => simp
    | some p =>
      obtain ⟨a, b⟩ := p
      cases b <;> simp)

instance (d : Dialect) (s : Str) : Decidable (ExprText d s) :=
  decidable_of_iff (Fragment d s ∧ bal 0 (toks d s) = true ∧
      ((s.head? = some '(' ∧ s.getLast? = some ')') ↔ ∃ i, inBrackets (toks d s) = some (i, [])))
    ⟨fun ⟨a, b, c⟩ => ⟨a, b, c⟩, fun ⟨a, b, c⟩ => ⟨a, b, c⟩⟩

set_option synthInstance.maxSize 1000 in
set_option synthInstance.maxHeartbeats 200000 in
instance (d : Dialect) (coll : Str) (level : Bool) (c : Column) :
    Decidable (ColumnOk d coll level c) :=
  decidable_of_iff ((d ≠ .oracle ∧ d ≠ .other) ∧ PlainName d c.columnName ∧
      (c.domainName ≠ [] → ClauseText d c.domainName) ∧
      (c.isEnum = true → ClauseText d c.columnType) ∧
      (c.domainName = [] → c.isEnum = false → c.columnType.all (fun x => wordChar x ||
        Go.isSpace x || x == '.' || x == ',' || x == '(' || x == ')' ||
          (d ≠ .sqlserver && (x == '[' || x == ']'))) = true ∧
        flat 0 (toks d c.columnType) = true ∧ quiet stops 0 (toks d c.columnType) = true) ∧
      (c.columnIdentity ≠ [] → d = .postgres ∨ d = .sqlserver →
        toks d c.columnIdentity ∈ identities d ∧ Fragment d c.columnIdentity) ∧
      ClauseText d c.columnDefault ∧
      (if d = .postgres then ¬ HasInnerPair '"' c.collationName
        else c.collationName.all wordChar = true) ∧
      (c.generatedExpr ≠ [] → ExprText d c.generatedExpr) ∧
      (c.generatedExpr ≠ [] → d = .sqlite ∨ d = .postgres → c.generatedExprStored = true) ∧
      (c.referencesSchema ≠ [] → PlainName d c.referencesSchema) ∧
      (c.referencesTable ≠ [] → PlainName d c.referencesTable) ∧
      (c.referencesColumn ≠ [] → PlainName d c.referencesColumn) ∧
      (ruleOf c.updateRule).isSome = true ∧ (ruleOf c.deleteRule).isSome = true ∧
      (colOf d coll level c).allowed d = true)
    ⟨fun ⟨a1, a2, a3, a4, a5, a6, a7, a8, a9, a10, a11, a12, a13, a14, a15, a16⟩ =>
      ⟨a1, a2, a3, a4, a5, a6, a7, a8, a9, a10, a11, a12, a13, a14, a15, a16⟩,
     fun ⟨a1, a2, a3, a4, a5, a6, a7, a8, a9, a10, a11, a12, a13, a14, a15, a16⟩ =>
      ⟨a1, a2, a3, a4, a5, a6, a7, a8, a9, a10, a11, a12, a13, a14, a15, a16⟩⟩

instance (d : Dialect) (cur : Str) (c : Constraint) : Decidable (ForeignOk d cur c) :=
  decidable_of_iff ((c.referencesSchema ≠ [] → PlainName d c.referencesSchema) ∧ PlainName d cur ∧
      PlainName d c.referencesTable ∧ c.referencesColumns ≠ [] ∧
      (∀ x ∈ c.referencesColumns, PlainName d x) ∧ (ruleOf c.updateRule).isSome = true ∧
      (ruleOf c.deleteRule).isSome = true ∧ c.matchOption = [] ∧
      (d = .sqlite → (c.referencesSchema = [] ∨ c.referencesSchema = cur) ∧
        (c.tableSchema = [] ∨ c.tableSchema = cur)))
    ⟨fun ⟨a1, a2, a3, a4, a5, a6, a7, a8, a9⟩ => ⟨a1, a2, a3, a4, a5, a6, a7, a8, a9⟩,
     fun ⟨a1, a2, a3, a4, a5, a6, a7, a8, a9⟩ => ⟨a1, a2, a3, a4, a5, a6, a7, a8, a9⟩⟩

instance (d : Dialect) (c : Constraint) : Decidable (ExcludeOk d c) :=
  decidable_of_iff (d = .postgres ∧ c.columns ≠ [] ∧ c.exclusionIndexType.all wordChar = true ∧
      (∀ x ∈ c.columns, Fragment d x ∧ flat 0 (toks d x) = true ∧
        quiet [b!"WITH"] 0 (toks d x) = true) ∧
      (∀ x ∈ c.exclusionOperators, Fragment d x ∧ flat 0 (toks d x) = true) ∧
      Fragment d c.exclusionPredicate ∧ bal 0 (toks d c.exclusionPredicate) = true)
    ⟨fun ⟨a1, a2, a3, a4, a5, a6⟩ => ⟨a1, a2, a3, a4, a5, a6⟩,
     fun ⟨a1, a2, a3, a4, a5, a6⟩ => ⟨a1, a2, a3, a4, a5, a6⟩⟩

instance (d : Dialect) (cur : Str) (c : Constraint) : Decidable (ConstraintOk d cur c) :=
  decidable_of_iff ((d ≠ .oracle ∧ d ≠ .other) ∧
      (c.constraintName ≠ [] → PlainName d c.constraintName) ∧
      c.constraintType ∈ [b!"PRIMARY KEY", b!"UNIQUE", b!"FOREIGN KEY", b!"CHECK", b!"EXCLUDE"] ∧
      (c.constraintType ∈ [b!"PRIMARY KEY", b!"UNIQUE", b!"FOREIGN KEY"] →
        c.columns ≠ [] ∧ ∀ x ∈ c.columns, PlainName d x) ∧
      (c.constraintType = b!"FOREIGN KEY" → ForeignOk d cur c) ∧
      (c.constraintType = b!"CHECK" →
        Fragment d c.checkExpr ∧ bal 0 (toks d c.checkExpr) = true ∧ c.isDeferrable = false) ∧
      (c.constraintType = b!"EXCLUDE" → ExcludeOk d c) ∧ c.isNotValid = false)
    ⟨fun ⟨a1, a2, a3, a4, a5, a6, a7, a8⟩ => ⟨a1, a2, a3, a4, a5, a6, a7, a8⟩,
     fun ⟨a1, a2, a3, a4, a5, a6, a7, a8⟩ => ⟨a1, a2, a3, a4, a5, a6, a7, a8⟩⟩

instance (d : Dialect) (inline : Bool) (x : Index) : Decidable (IndexOk d inline x) :=
  decidable_of_iff ((d ≠ .oracle ∧ d ≠ .other) ∧ PlainName d x.indexName ∧
      (x.tableSchema ≠ [] → PlainName d x.tableSchema) ∧ PlainName d x.tableName ∧
      x.indexType.all wordChar = true ∧
      (d = .mysql → Go.toLower x.indexType ≠ b!"spatial" ∧ Go.toLower x.indexName ≠ b!"spatial") ∧
      (special d x = true → x.isUnique = false) ∧
      (inline = true → d = .mysql ∧
        Go.toLower x.indexType ∈ [([] : Str), b!"btree", b!"fulltext"]) ∧
      x.columns ≠ [] ∧ (∀ c ∈ x.columns, if isExpr c then ExprText d c else PlainName d c) ∧
      (∀ c ∈ x.includeColumns, PlainName d c) ∧
      Fragment d x.predicate ∧ bal 0 (toks d x.predicate) = true)
    ⟨fun ⟨a1, a2, a3, a4, a5, a6, a7, a8, a9, a10, a11, a12⟩ =>
      ⟨a1, a2, a3, a4, a5, a6, a7, a8, a9, a10, a11, a12⟩,
     fun ⟨a1, a2, a3, a4, a5, a6, a7, a8, a9, a10, a11, a12⟩ =>
      ⟨a1, a2, a3, a4, a5, a6, a7, a8, a9, a10, a11, a12⟩⟩

instance (d : Dialect) (cur coll : Str) (t : Table) : Decidable (TableText d cur coll t) :=
  decidable_of_iff ((d ≠ .oracle ∧ d ≠ .other) ∧ t.sql = [] ∧
      (t.tableSchema ≠ [] → PlainName d t.tableSchema) ∧ PlainName d t.tableName ∧
      liveColumns t ≠ [] ∧ (∀ c ∈ liveColumns t, ColumnOk d coll false c) ∧
      (∀ c ∈ liveColumns t, c.isGenerated = true → c.generatedExpr ≠ []) ∧
      (d = .postgres → ∀ c ∈ liveColumns t, Go.toLower c.columnName ≠ b!"exclude") ∧
      (∀ c ∈ liveConstraints t, ConstraintOk d cur c ∧ c.tableSchema = t.tableSchema) ∧
      ((liveConstraints t).filter primaryKey).length ≤ 1)
    ⟨fun ⟨a1, a2, a3, a4, a5, a6, a7, a8, a9, a10⟩ => ⟨a1, a2, a3, a4, a5, a6, a7, a8, a9, a10⟩,
     fun ⟨a1, a2, a3, a4, a5, a6, a7, a8, a9, a10⟩ => ⟨a1, a2, a3, a4, a5, a6, a7, a8, a9, a10⟩⟩

end DdlText

namespace EngineSpec
open SqlSpec Sqddl DdlText CatalogSpec FileSpec

instance (c : Catalog) : Decidable (Described c) :=
  decidable_of_iff (Ok c ∧ (∀ s ∈ liveSchemas c, s.schemaName ≠ []) ∧
      (∀ t ∈ liveTables c, ∀ x ∈ liveConstraints t,
        x.tableSchema = t.tableSchema ∧ x.tableName = t.tableName) ∧
      (∀ t ∈ liveTables c, ∀ x ∈ liveConstraints t, x.constraintType = b!"PRIMARY KEY" →
        x.constraintName = b!"PRIMARY") ∧
      (∀ t ∈ liveTables c, ∀ x ∈ liveConstraints t, x.constraintType ∈
        [b!"PRIMARY KEY", b!"UNIQUE", b!"FOREIGN KEY", b!"CHECK", b!"EXCLUDE"]) ∧
      (∀ t ∈ liveTables c, ∀ x ∈ t.indexes,
        x.tableSchema = t.tableSchema ∧ x.tableName = t.tableName))
    ⟨fun ⟨a1, a2, a3, a4, a5, a6⟩ => ⟨a1, a2, a3, a4, a5, a6⟩,
     fun ⟨a1, a2, a3, a4, a5, a6⟩ => ⟨a1, a2, a3, a4, a5, a6⟩⟩

instance (drop : Bool) (s t : Table) : Decidable (Touched drop s t) := by
  unfold Touched; infer_instance

instance (cur : Str) (drop : Bool) (src dest : Catalog) : Decidable (Comparable cur drop src dest) :=
  decidable_of_iff ((∀ p ∈ commonTables src dest, ∀ q ∈ commonConstraints p.1 p.2,
        conOf .mysql cur q.1 = conOf .mysql cur q.2 ∨
        (q.1.constraintType = b!"PRIMARY KEY" ∧ rekeyed q = true)) ∧
      (∀ p ∈ commonTables src dest, ∀ x ∈ liveIndexes p.1, ∀ y ∈ liveIndexes p.2,
        x.indexName = y.indexName → idxOf .mysql cur false true x = idxOf .mysql cur false true y) ∧
      (∀ p ∈ commonTables src dest, ∀ x ∈ liveConstraints p.2, keyConstraint x = false →
        foreignKey x = false → hasConstraint p.1 x.constraintName = true) ∧
      (drop = true → ∀ p ∈ commonTables src dest, ∀ x ∈ liveConstraints p.1,
        keyConstraint x = false → foreignKey x = false → hasConstraint p.2 x.constraintName = true) ∧
      (drop = true → ∀ p ∈ commonTables src dest, ∀ x ∈ liveColumns p.1,
        hasColumn p.2 x.columnName = false → Touched drop p.1 p.2) ∧
      (∀ t ∈ liveTables dest, hasTable src t.tableSchema t.tableName = false →
        ∀ x ∈ t.indexes, x.ignore = false))
    ⟨fun ⟨a1, a2, a3, a4, a5, a6⟩ => ⟨a1, a2, a3, a4, a5, a6⟩,
     fun ⟨a1, a2, a3, a4, a5, a6⟩ => ⟨a1, a2, a3, a4, a5, a6⟩⟩

instance (cur coll : Str) (src dest : Catalog) : Decidable (Expressible cur coll src dest) :=
  decidable_of_iff ((∀ s ∈ liveSchemas src ++ liveSchemas dest, PlainName .mysql s.schemaName) ∧
      (∀ t ∈ liveTables src, PlainName .mysql t.tableName ∧
        (∀ x ∈ liveColumns t, PlainName .mysql x.columnName) ∧
        (∀ x ∈ liveConstraints t, PlainName .mysql x.constraintName) ∧
        ∀ x ∈ liveIndexes t, PlainName .mysql x.indexName) ∧
      (∀ t ∈ liveTables dest, TableText .mysql cur coll t) ∧
      (∀ t ∈ liveTables dest, ∀ x ∈ t.indexes, x.sql = [] ∧
        IndexOk .mysql (hasTable src t.tableSchema t.tableName) x))
    ⟨fun ⟨a1, a2, a3, a4⟩ => ⟨a1, a2, a3, a4⟩, fun ⟨a1, a2, a3, a4⟩ => ⟨a1, a2, a3, a4⟩⟩

instance (s suf : Str) : Decidable (EndsWith s suf) :=
  decidable_of_iff (suf <:+ s) ⟨fun ⟨a, h⟩ => ⟨a, h.symm⟩, fun ⟨a, h⟩ => ⟨a, h.symm⟩⟩

instance (n : Str) : Decidable (FileWord n) := by unfold FileWord; infer_instance

instance (pre : Str) (src dest : Catalog) : Decidable (Nameable pre src dest) :=
  decidable_of_iff (Safe pre ∧ (∀ s ∈ liveSchemas dest, Safe s.schemaName) ∧
      (∀ t ∈ liveTables dest, FileWord t.tableName) ∧
      (∀ t ∈ liveTables src ++ liveTables dest, ∀ x ∈ liveConstraints t, foreignKey x = true →
        FileWord x.constraintName))
    ⟨fun ⟨a1, a2, a3, a4⟩ => ⟨a1, a2, a3, a4⟩, fun ⟨a1, a2, a3, a4⟩ => ⟨a1, a2, a3, a4⟩⟩

/-! ## Consistency of the database that a catalog describes -/

/-- The columns are those of a key of the table. -/
def keyCheck (cur coll : Str) (t : Table) (cols : List Str) : Bool :=
  (liveConstraints t).any (fun x => ((tblOf cur coll t).con x.constraintName).any
    fun c => c.kind == .primary cols || c.kind == .unique cols) ||
  (liveIndexes t).any (fun x => ((tblOf cur coll t).idx x.indexName).any
    fun y => y.unique && y.cols == cols.map fun c => .column c false)

/-- What a foreign key references exists and is a key. -/
def fkeyCheck (cur coll : Str) (c : Catalog) : ConKind → Bool
  | .foreign cols ref => cols.length == ref.cols.length &&
    ((liveTables c).find? fun t => (t.tableSchema, t.tableName) == key ref.table).any fun r =>
      ref.cols.all (fun x => ((tblOf cur coll r).col x).isSome) && keyCheck cur coll r ref.cols
  | _ => true

def isForeign : ConKind → Bool
  | .foreign _ _ => true
  | _ => false

def idxColCheck (t : Tbl) : IdxCol → Bool
  | .column n _ => (t.col n).isSome
  | _ => true

theorem consistent_of {cur coll : Str} {c : Catalog}
    (h1 : ∀ t ∈ liveTables c, hasSchema c t.tableSchema = true)
    (h2 : ∀ t ∈ liveTables c, liveColumns t ≠ [])
    (h3 : ∀ t ∈ liveTables c, ∀ x ∈ liveConstraints t, ∀ y ∈ ConKind.cols (conOf .mysql cur x).kind,
      ((tblOf cur coll t).col y).isSome = true)
    (h4 : ∀ t ∈ liveTables c, ∀ x ∈ liveIndexes t, ∀ y ∈ (idxOf .mysql cur false true x).cols,
      idxColCheck (tblOf cur coll t) y = true)
    (h5 : ∀ t ∈ liveTables c, ∀ x ∈ liveConstraints t, ∀ y ∈ liveIndexes t,
      x.constraintName = y.indexName → isKey (conOf .mysql cur x) = false)
    (h6 : ∀ t ∈ liveTables c, ∀ x ∈ liveConstraints t,
      fkeyCheck cur coll c (conOf .mysql cur x).kind = true)
    (h7 : ∀ t ∈ liveTables c, ∀ u ∈ liveTables c, ∀ x ∈ liveConstraints t, ∀ y ∈ liveConstraints u,
      t.tableSchema = u.tableSchema → x.constraintName = y.constraintName →
      isForeign (conOf .mysql cur x).kind = true → isForeign (conOf .mysql cur y).kind = true →
      t.tableName = u.tableName) :
    (dbOf cur coll c).Consistent := by
  have ht : ∀ k t, (dbOf cur coll c).table k = some t →
      ∃ u ∈ liveTables c, (u.tableSchema, u.tableName) = k ∧ tblOf cur coll u = t := by
    intro k t h
    obtain ⟨u, hu, e⟩ := Option.map_eq_some_iff.1 h
    refine ⟨u, List.mem_of_find?_eq_some hu, ?_, e⟩
    have := List.find?_some hu
    exact eq_of_beq this
  have hcon : ∀ (u : Table) n x, (tblOf cur coll u).con n = some x →
      ∃ y ∈ liveConstraints u, y.constraintName = n ∧ conOf .mysql cur y = x := by
    intro u n x h
    obtain ⟨y, hy, e⟩ := Option.map_eq_some_iff.1 h
    refine ⟨y, List.mem_of_find?_eq_some hy, ?_, e⟩
    have := List.find?_some hy
    exact eq_of_beq this
  have hidx : ∀ (u : Table) n x, (tblOf cur coll u).idx n = some x →
      ∃ y ∈ liveIndexes u, y.indexName = n ∧ idxOf .mysql cur false true y = x := by
    intro u n x h
    obtain ⟨y, hy, e⟩ := Option.map_eq_some_iff.1 h
    refine ⟨y, List.mem_of_find?_eq_some hy, ?_, e⟩
    have := List.find?_some hy
    exact eq_of_beq this
  refine ⟨?_, ?_, ?_, ?_⟩
  · intro k t h
    obtain ⟨u, hu, rfl, _⟩ := ht k t h
    exact h1 u hu
  · intro k t h
    obtain ⟨u, hu, _, rfl⟩ := ht k t h
    refine ⟨?_, ?_, ?_, ?_⟩
    · obtain ⟨x, r, e⟩ := List.exists_cons_of_ne_nil (h2 u hu)
      refine ⟨x.columnName, ?_⟩
      show (((liveColumns u).find? _).map _).isSome = true
      rw [Option.isSome_map, List.find?_isSome]
      exact ⟨x, by simp [e], by simp⟩
    · intro n x hx y hy
      obtain ⟨z, hz, _, rfl⟩ := hcon u n x hx
      exact h3 u hu z hz y hy
    · intro n x hx y d hy
      obtain ⟨z, hz, _, rfl⟩ := hidx u n x hx
      exact h4 u hu z hz _ hy
    · intro n x y hx hy
      obtain ⟨z, hz, e1, rfl⟩ := hcon u n x hx
      obtain ⟨w, hw, e2, _⟩ := hidx u n y hy
      exact h5 u hu z hz w hw (e1.trans e2.symm)
  · intro k t n x cols ref h hx hk
    obtain ⟨u, hu, _, rfl⟩ := ht k t h
    obtain ⟨z, hz, _, rfl⟩ := hcon u n x hx
    have := h6 u hu z hz
    rw [hk] at this
    unfold fkeyCheck at this
    rw [Bool.and_eq_true] at this
    refine ⟨eq_of_beq this.1, ?_⟩
    have h := this.2
    cases hr : (liveTables c).find? fun t => (t.tableSchema, t.tableName) == key ref.table with
    | none => rw [hr] at h; cases h
    | some r =>
      rw [hr, Option.any_some, Bool.and_eq_true, List.all_eq_true] at h
      refine ⟨tblOf cur coll r, ?_, h.1, ?_⟩
      · show Option.map _ _ = _
        rw [hr]; rfl
      · have hkey := h.2
        unfold keyCheck at hkey
        rw [Bool.or_eq_true, List.any_eq_true, List.any_eq_true] at hkey
        rcases hkey with ⟨x, _, hx⟩ | ⟨x, _, hx⟩
        · left
          cases e : (tblOf cur coll r).con x.constraintName with
          | none => rw [e] at hx; cases hx
          | some y =>
            rw [e, Option.any_some, Bool.or_eq_true, beq_iff_eq, beq_iff_eq] at hx
            exact ⟨_, _, e, hx⟩
        · right
          cases e : (tblOf cur coll r).idx x.indexName with
          | none => rw [e] at hx; cases hx
          | some y =>
            rw [e, Option.any_some, Bool.and_eq_true, beq_iff_eq] at hx
            exact ⟨_, _, e, hx⟩
  · intro s a b t u n x y cols ref cols' ref' h1' h2' hx hy hk hk'
    obtain ⟨t, ht1, e1, rfl⟩ := ht _ _ h1'
    obtain ⟨u, hu1, e2, rfl⟩ := ht _ _ h2'
    obtain ⟨x, hx1, e3, rfl⟩ := hcon _ _ _ hx
    obtain ⟨y, hy1, e4, rfl⟩ := hcon _ _ _ hy
    injection e1 with e5 e6
    injection e2 with e7 e8
    rw [← e6, ← e8]
    exact h7 t ht1 u hu1 x hx1 y hy1 (e5.trans e7.symm) (e3.trans e4.symm) (by rw [hk]; rfl)
      (by rw [hk']; rfl)

theorem goal_drop (S D : Db) : Db.goal true S D = D := by
  have hn : ∀ {α : Type} (a b : Option α), newer true a b = b := by
    intro α a b; cases b <;> rfl
  have ht : ∀ a b, Tbl.goal true a b = b := by
    intro a b
    unfold Tbl.goal
    simp only [hn]
  refine Db.ext (funext fun s => ?_) (funext fun k => ?_)
  · simp [Db.goal]
  · unfold Db.goal
    dsimp only
    cases S.table k <;> cases h : D.table k <;> simp [ht]

end EngineSpec
