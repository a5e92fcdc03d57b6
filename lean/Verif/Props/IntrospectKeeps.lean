import Verif.Props.IntrospectText

/-!
# What introspection takes over from the rows of the queries as it is
-/

namespace Sqddl.Introspect
open Go

/-- **C79**: the columns have the names, the nullability, the collations, identities, comments and
flags that the database reports; what a column is by the keys of its table is not yet set.  Types,
defaults and generated expressions are the subject of C83. -/
theorem scanColumn_keeps (isFloat : Str → Bool) (d : Dialect) (hd : supported d = true) (r c : Column)
    (h : scanColumn isFloat d r = some c) :
    (c.tableName = r.tableName ∧ c.columnName = r.columnName ∧ c.isNotNull = r.isNotNull) ∧
    (d ≠ .sqlite → c.tableSchema = r.tableSchema ∧ c.collationName = r.collationName ∧
      c.generatedExprStored = r.generatedExprStored) ∧
    (d = .postgres ∨ d = .sqlserver → c.columnIdentity = r.columnIdentity ∧
      c.generatedExpr = r.generatedExpr) ∧
    (d = .postgres ∨ d = .mysql → c.comment = r.comment) ∧
    (d = .postgres → c.isEnum = r.isEnum ∧ c.domainName = r.domainName ∧
      c.columnDefault = r.columnDefault) ∧
    (d = .mysql → c.columnType = r.columnType ∧ c.isAutoincrement = r.isAutoincrement ∧
      c.onUpdateCurrentTimestamp = r.onUpdateCurrentTimestamp ∧
      ('\\' ∉ r.generatedExpr → c.generatedExpr = r.generatedExpr)) ∧
    (c.isPrimaryKey = false ∧ c.isUnique = false ∧ c.referencesTable = [] ∧ c.ignore = false) := by
  cases d <;> simp [supported] at hd
  · simp only [scanColumn, Option.some.injEq] at h
    subst h
    simp [sqliteColumn]
  · simp only [scanColumn, postgresColumn, Option.map_eq_some_iff] at h
    obtain ⟨p, -, rfl⟩ := h
    simp
  · simp only [scanColumn, mysqlColumn, Option.map_eq_some_iff] at h
    obtain ⟨p, -, rfl⟩ := h
    simp
    exact replacePair_none
  · simp only [scanColumn, sqlserverColumn, Option.map_eq_some_iff] at h
    obtain ⟨p, -, rfl⟩ := h
    simp

example : (scanColumn (fun _ => false) .mysql
    { tableSchema := b!"app", tableName := b!"t", columnName := b!"id", columnType := b!"int"
      isNotNull := true, isAutoincrement := true }).map (fun c => (c.columnName, c.isAutoincrement)) =
    some (b!"id", true) := by decide +kernel

/-- **C83**: a SQLite column that its type says to be generated is generated, and its type does not
say so any more; any other type is as it is reported. -/
theorem sqliteType_keeps (isFloat : Str → Bool) (r : Column) :
    ∃ c, scanColumn isFloat .sqlite r = some c ∧
      (∀ t, r.columnType = t ++ b!" GENERATED ALWAYS" → c.columnType = t ∧ c.isGenerated = true) ∧
      ((¬ ∃ t, r.columnType = t ++ b!" GENERATED ALWAYS") →
        c.columnType = r.columnType ∧ c.isGenerated = r.isGenerated) := by
  refine ⟨_, rfl, ?_, ?_⟩
  · intro t ht
    have hs : hasSuffix r.columnType b!" GENERATED ALWAYS" = true := (hasSuffix_iff' _ _).2 ⟨t, ht⟩
    simp only [sqliteColumn, hs, if_true, Bool.or_true, and_true, trimSuffix]
    rw [ht]
    simp
  · intro hn
    have hs : hasSuffix r.columnType b!" GENERATED ALWAYS" = false := by
      cases h : hasSuffix r.columnType b!" GENERATED ALWAYS" with
      | false => rfl
      | true => exact absurd ((hasSuffix_iff' _ _).1 h) hn
    simp [sqliteColumn, hs]

example : ∃ c, scanColumn (fun _ => false) .sqlite { columnType := b!"INT GENERATED ALWAYS" } = some c ∧
    c.columnType = b!"INT" ∧ c.isGenerated = true := ⟨_, rfl, by decide, by decide⟩

/-- The names of the types of texts with a length and of decimals. -/
def textTypes : List Str := [b!"varchar", b!"character varying", b!"char", b!"character"]

/-- **C83**: a column of texts has the length in the type, and a decimal one the precision and scale;
what MySQL and Postgres report besides goes first. -/
theorem sizes_read (isFloat : Str → Bool) (r : Column) (a b : Str) (ha : TypeArg a) (hb : TypeArg b) :
    (∀ n ∈ textTypes, r.columnType = typeOf n [a] → ∃ c, scanColumn isFloat .postgres r = some c ∧
      c.characterLength = a) ∧
    (∀ n ∈ [b!"varchar", b!"char"], r.columnType = typeOf n [a] → ∃ c, scanColumn isFloat .mysql r = some c ∧
      c.characterLength = (if r.characterLength = [] then a else r.characterLength)) ∧
    (∀ d, d = .postgres ∨ d = .mysql → ∀ n ∈ [b!"numeric", b!"decimal"], r.columnType = typeOf n [a, b] →
      ∃ c, scanColumn isFloat d r = some c ∧ c.characterLength = [] ∧
        c.numericPrecision = (if r.numericPrecision = [] then a else r.numericPrecision) ∧
        c.numericScale = (if r.numericScale = [] then b else r.numericScale)) := by
  have h1 : ∀ x ∈ [a], TypeArg x := by simpa using ha
  have h2 : ∀ x ∈ [a, b], TypeArg x := by
    intro x hx
    simp only [List.mem_cons, List.not_mem_nil, or_false] at hx
    rcases hx with rfl | rfl
    · exact ha
    · exact hb
  have hn : ∀ n ∈ textTypes ++ [b!"numeric", b!"decimal"], TypeName n := by
    intro n hn
    simp only [textTypes, List.mem_append, List.mem_cons, List.not_mem_nil, or_false] at hn
    rcases hn with (rfl | rfl | rfl | rfl) | (rfl | rfl) <;> exact ⟨by decide, by decide⟩
  refine ⟨fun n hm ht => ?_, fun n hm ht => ?_, fun d hd n hm ht => ?_⟩
  · have e := typeArgs_typeOf (hn n (List.mem_append_left _ hm)) h1 (by simp)
    have hp : ∀ n ∈ textTypes, pgType (toUpper n) [] ∈ [b!"VARCHAR", b!"CHAR"] := by decide +kernel
    have hp := hp n hm
    have e1 : normalizeColumnType .postgres r.columnType = some (pgType (toUpper n) [], a, []) := by
      rw [ht]; simp only [normalizeColumnType, e]; rfl
    simp only [scanColumn, postgresColumn, e1, Option.map_some, pgSizes]
    refine ⟨_, rfl, ?_⟩
    rw [if_pos (by simpa using hp)]
  · have hm' : n ∈ textTypes := by
      simp only [List.mem_cons, List.not_mem_nil, or_false] at hm
      rcases hm with rfl | rfl <;> decide
    have e := typeArgs_typeOf (hn n (List.mem_append_left _ hm')) h1 (by simp)
    have e1 : ∃ t, normalizeColumnType .mysql r.columnType = some (t, a, []) ∧ (t = b!"VARCHAR" ∨ t = b!"CHAR") := by
      rw [ht]; simp only [normalizeColumnType, e]
      simp only [List.mem_cons, List.not_mem_nil, or_false] at hm
      rcases hm with rfl | rfl
      · exact ⟨_, rfl, Or.inl rfl⟩
      · exact ⟨_, rfl, Or.inr rfl⟩
    obtain ⟨t, e1, e2⟩ := e1
    simp only [scanColumn, mysqlColumn, e1, Option.map_some, mysqlSizes]
    refine ⟨_, rfl, ?_⟩
    rw [if_pos e2]
  · have e := typeArgs_typeOf (hn n (List.mem_append_right _ hm)) h2 (by simp)
    have e1 : normalizeColumnType d r.columnType = some (b!"NUMERIC", a, b) := by
      rw [ht]; simp only [normalizeColumnType, e]
      simp only [List.mem_cons, List.not_mem_nil, or_false] at hm
      rcases hd with rfl | rfl <;> rcases hm with rfl | rfl <;> rfl
    rcases hd with rfl | rfl
    · simp only [scanColumn, postgresColumn, e1, Option.map_some, pgSizes]
      refine ⟨_, rfl, ?_⟩
      rw [if_neg (by decide), if_neg (by decide), if_pos trivial]
      exact ⟨rfl, rfl, rfl⟩
    · simp only [scanColumn, mysqlColumn, e1, Option.map_some, mysqlSizes]
      refine ⟨_, rfl, ?_⟩
      rw [if_neg (by decide), if_pos trivial]
      exact ⟨rfl, rfl, rfl⟩

/-- **C83**: the sizes of a SQL Server column are those that the database reports. -/
theorem sqlserverSizes_read (isFloat : Str → Bool) (r : Column) :
    (r.columnType ∈ [b!"varbinary", b!"binary", b!"nvarchar", b!"varchar", b!"char"] →
      ∃ c, scanColumn isFloat .sqlserver r = some c ∧
        c.characterLength = (if r.characterLength = b!"-1" then b!"MAX" else r.characterLength)) ∧
    (r.columnType ∈ [b!"numeric", b!"decimal"] → ∃ c, scanColumn isFloat .sqlserver r = some c ∧
        c.numericPrecision = r.numericPrecision ∧ c.numericScale = r.numericScale) ∧
    (r.columnType = b!"float" → ∃ c, scanColumn isFloat .sqlserver r = some c ∧
        c.numericPrecision = r.numericPrecision) := by
  refine ⟨fun h => ?_, fun h => ?_, fun h => ?_⟩
  · have key : ∀ t ∈ [b!"varbinary", b!"binary", b!"nvarchar", b!"varchar", b!"char"],
        normalizeColumnType .sqlserver t = some (toUpper t, [], []) ∧
        toUpper t ∈ [b!"VARBINARY", b!"BINARY", b!"NVARCHAR", b!"VARCHAR", b!"CHAR"] := by
      decide +kernel
    obtain ⟨k1, k2⟩ := key _ h
    simp only [scanColumn, sqlserverColumn, k1, Option.map_some, sqlserverSizes, if_pos k2]
    exact ⟨_, rfl, rfl⟩
  · have key : ∀ t ∈ [b!"numeric", b!"decimal"],
        normalizeColumnType .sqlserver t = some (b!"NUMERIC", [], []) := by decide +kernel
    have k1 := key _ h
    simp only [scanColumn, sqlserverColumn, k1, Option.map_some, sqlserverSizes]
    refine ⟨_, rfl, ?_⟩
    rw [if_neg (by decide), if_pos trivial]
    exact ⟨rfl, rfl⟩
  · have k1 : normalizeColumnType .sqlserver r.columnType = some (b!"FLOAT", [], []) := by rw [h]; rfl
    simp only [scanColumn, sqlserverColumn, k1, Option.map_some, sqlserverSizes]
    refine ⟨_, rfl, ?_⟩
    rw [if_neg (by decide), if_neg (by decide), if_pos trivial]

example : ((scanColumn (fun _ => false) .postgres { columnType := b!"character varying(255)" }).map
      (·.characterLength), (scanColumn (fun _ => false) .mysql { columnType := b!"decimal(10,2)" }).map
      (·.numericScale)) = (some b!"255", some b!"2") := by decide +kernel

example : (scanColumn (fun _ => false) .sqlserver { columnType := b!"binary", characterLength := b!"16" }).map
    (·.characterLength) = some b!"16" := by decide +kernel

/-- The rules of foreign keys as the databases report them, and as they are in a catalog, where no
rule is no action. -/
def rules : List (Str × Str) :=
  [(b!"NO ACTION", []), (b!"CASCADE", b!"CASCADE"), (b!"RESTRICT", b!"RESTRICT"),
   (b!"SET NULL", b!"SET NULL"), (b!"SET DEFAULT", b!"SET DEFAULT")]

/-- **C79**: the constraints have the names, types, tables, rules and flags that the database
reports.  (SQL Server writes the rules with underscores.) -/
theorem scanConstraint_keeps (d : Dialect) (hd : supported d = true) (r : ConstraintRow) :
    let c := scanConstraint d r
    (c.tableName = r.row.tableName ∧ c.constraintType = r.row.constraintType ∧
      c.referencesTable = r.row.referencesTable ∧ c.ignore = false) ∧
    (d ≠ .sqlite → c.tableSchema = r.row.tableSchema ∧ c.constraintName = r.row.constraintName ∧
      c.referencesSchema = r.row.referencesSchema) ∧
    (∀ p ∈ rules, (r.row.updateRule = p.1 → c.updateRule = p.2) ∧
      (r.row.deleteRule = p.1 → c.deleteRule = p.2)) ∧
    (d = .sqlserver → ∀ p ∈ rules,
      (r.row.updateRule = p.1.map (fun x => if x = ' ' then '_' else x) → c.updateRule = p.2) ∧
      (r.row.deleteRule = p.1.map (fun x => if x = ' ' then '_' else x) → c.deleteRule = p.2)) ∧
    (d = .postgres ∨ d = .mysql → c.matchOption = r.row.matchOption) ∧
    (d = .postgres → c.isDeferrable = r.row.isDeferrable ∧
      c.isInitiallyDeferred = r.row.isInitiallyDeferred ∧
      c.exclusionOperators = r.row.exclusionOperators ∧
      c.exclusionIndexType = r.row.exclusionIndexType ∧
      c.exclusionPredicate = r.row.exclusionPredicate) ∧
    (d = .postgres ∨ d = .sqlserver → c.isNotValid = r.row.isNotValid) ∧
    (d = .sqlserver → c.isClustered = r.row.isClustered) := by
  have h1 : ∀ p ∈ rules, ruleOf p.1 = p.2 ∧ ruleOf (spaced p.1) = p.2 ∧
      ruleOf (spaced (p.1.map fun x => if x = ' ' then '_' else x)) = p.2 := by decide +kernel
  cases d <;> simp [supported] at hd <;> refine ⟨?_, ?_, ?_, ?_, ?_, ?_, ?_, ?_⟩
  all_goals first
    | (intro hx; exact absurd hx (by decide))
    | (intro p hp
       refine ⟨fun e => ?_, fun e => ?_⟩ <;> simp only [scanConstraint, e, h1 p hp])
    | (intro _ p hp
       refine ⟨fun e => ?_, fun e => ?_⟩ <;> simp only [scanConstraint, e, h1 p hp])
    | simp [scanConstraint]

example : (scanConstraint .sqlserver { row := { updateRule := b!"SET_NULL" } }).updateRule =
    b!"SET NULL" ∧ (scanConstraint .mysql { row := { deleteRule := b!"NO ACTION" } }).deleteRule = [] := by
  decide

/-! ## SQL texts -/

/-- **C79**: a SQL text comes with the line ends of Unix, and is not changed otherwise. -/
theorem unixLines_lines (lines : List Str) (h : ∀ l ∈ lines, '\r' ∉ l) :
    unixLines (join b!"\r\n" lines) = join b!"\n" lines := by
  have key : ∀ (l s : Str), '\r' ∉ l → replacePair '\r' '\n' '\n' (l ++ s) =
      l ++ replacePair '\r' '\n' '\n' s := by
    intro l s
    induction l with
    | nil => intro _; rfl
    | cons x l ih =>
      intro hx
      rw [List.mem_cons, not_or] at hx
      have e := ih hx.2
      cases hl : l ++ s with
      | nil =>
        rw [hl] at e
        have h1 : l = [] ∧ s = [] := by simpa using hl
        simp [h1.1, h1.2, replacePair]
      | cons y t =>
        rw [hl] at e
        rw [List.cons_append, hl, replacePair, if_neg (fun h => hx.1 h.1.symm), e]
        rfl
  unfold unixLines
  induction lines with
  | nil => rfl
  | cons a lines ih =>
    cases lines with
    | nil => exact replacePair_none (h a (by simp))
    | cons b lines =>
      have h1 := ih (fun l hl => h l (by simp [hl]))
      simp only [join] at h1 ⊢
      rw [List.append_assoc, key _ _ (h a (by simp))]
      simp only [List.cons_append, List.nil_append, replacePair, and_self, if_true, h1,
        List.append_assoc]

example : unixLines b!"BEGIN\r\nEND" = b!"BEGIN\nEND" := by decide

/-- **C79**: the indexes, triggers, views, routines, tables, enums and domains have the names,
flags, comments and texts that the database reports. -/
theorem scan_keeps (d : Dialect) (hd : supported d = true) :
    (∀ r i, scanIndex d r = some i → i.tableName = r.row.tableName ∧ i.indexName = r.row.indexName ∧
      i.isUnique = r.row.isUnique ∧ i.ignore = false ∧
      (d ≠ .sqlite → i.tableSchema = r.row.tableSchema ∧ i.indexType = r.row.indexType) ∧
      (d = .postgres ∨ d = .sqlserver → i.isViewIndex = r.row.isViewIndex ∧
        i.predicate = r.row.predicate) ∧
      (d = .sqlite ∨ d = .mysql → i.isViewIndex = false) ∧
      (d = .postgres → i.opclasses = r.row.opclasses) ∧
      (d = .sqlite ∨ d = .postgres → '\r' ∉ r.row.sql → i.sql = r.row.sql)) ∧
    (∀ r, let t := scanTrigger d r
      t.tableName = r.row.tableName ∧ t.triggerName = r.row.triggerName ∧ t.ignore = false ∧
      (d ≠ .sqlite → t.tableSchema = r.row.tableSchema) ∧
      (d = .postgres ∨ d = .sqlserver → t.isViewTrigger = r.row.isViewTrigger) ∧
      (d = .postgres → t.comment = r.row.comment) ∧
      (d = .mysql → t.attrs =
        [(b!"actionTiming", r.actionTiming), (b!"eventManipulation", r.eventManipulation)]) ∧
      ('\r' ∉ r.row.sql → t.sql = r.row.sql)) ∧
    (∀ r, let v := scanView d r
      v.viewName = r.row.viewName ∧ v.ignore = false ∧
      (d ≠ .sqlite → v.viewSchema = r.row.viewSchema) ∧
      (d = .postgres → v.isMaterialized = r.row.isMaterialized ∧ v.comment = r.row.comment) ∧
      ('\r' ∉ r.row.sql → v.sql = r.row.sql)) ∧
    (∀ r, let x := scanRoutine d r
      (d ≠ .sqlite → x.routineSchema = r.row.routineSchema ∧ x.routineName = r.row.routineName ∧
        x.routineType = r.row.routineType ∧ x.ignore = false ∧ ('\r' ∉ r.row.sql → x.sql = r.row.sql)) ∧
      (d = .postgres → x.identityArguments = r.row.identityArguments) ∧
      (d = .postgres ∨ d = .mysql → x.comment = r.row.comment ∧
        x.attrs.lookup b!"returnType" = some r.returnType) ∧
      (d = .mysql → x.attrs.lookup b!"parameters" = some r.parameters)) ∧
    (∀ r, let t := scanTable d r
      t.tableName = r.tableName ∧ t.ignore = false ∧ t.columns = [] ∧ t.constraints = [] ∧
      (d ≠ .sqlite → t.tableSchema = r.tableSchema) ∧
      (d = .postgres ∨ d = .mysql → t.comment = r.comment) ∧
      (d = .sqlite → '\r' ∉ r.sql → t.sql = r.sql)) := by
  have hu : ∀ s, '\r' ∉ s → unixLines s = s := fun s h => replacePair_none h
  refine ⟨?_, ?_, ?_, ?_, ?_⟩
  · intro r i h
    cases d <;> simp [supported] at hd
    · simp only [scanIndex, Option.some.injEq] at h
      subst h
      simp
      exact hu _
    · simp only [scanIndex] at h
      split at h
      · simp only [Option.some.injEq] at h
        subst h
        simp
        exact hu _
      · cases h
    · simp only [scanIndex, Option.some.injEq] at h
      subst h
      simp
    · simp only [scanIndex, Option.bind_eq_some_iff, Option.map_eq_some_iff] at h
      obtain ⟨p, -, desc, -, rfl⟩ := h
      simp
  · intro r
    cases d <;> simp [supported] at hd <;> simp [scanTrigger] <;> exact hu _
  · intro r
    cases d <;> simp [supported] at hd <;> simp [scanView] <;> exact hu _
  · intro r
    have e : (b!"parameters" == b!"returnType") = false := by decide
    cases d <;> simp [supported] at hd <;> simp [scanRoutine, List.lookup_cons, e] <;> exact hu _
  · intro r
    cases d <;> simp [supported] at hd <;> simp [scanTable] <;> exact hu _

example : (scanTrigger .postgres { row := { triggerName := b!"audit", isViewTrigger := true
                                            sql := b!"CREATE TRIGGER\r\naudit" } }).sql =
    b!"CREATE TRIGGER\naudit" := by decide

/-- **C79**: enums and domains of Postgres; the checks of a domain keep their brackets. -/
theorem scanEnum_keeps (e : Enum) (dm : Domain) (exprs : List Str)
    (hi : e.ignore = false) (hi' : dm.ignore = false)
    (hx : dm.checkExprs = exprs.map fun x => b!"CHECK (" ++ x ++ b!")") :
    scanEnum e = e ∧ scanDomain dm = { dm with checkExprs := exprs.map fun x => b!"(" ++ x ++ b!")" } := by
  constructor
  · cases e; simp at hi; simp [scanEnum, hi]
  · have : (dm.checkExprs.map fun e => trimPrefix e b!"CHECK ") =
        exprs.map fun x => b!"(" ++ x ++ b!")" := by
      rw [hx, List.map_map]
      apply List.map_congr_left
      intro x _
      simp [trimPrefix, hasPrefix]
    cases dm
    simp only [scanDomain] at this hi' ⊢
    rw [this, hi']

example : (scanDomain { domainName := b!"year", checkExprs := [b!"CHECK ((VALUE > 1900))"] }).checkExprs =
    [b!"((VALUE > 1900))"] := by decide

end Sqddl.Introspect
