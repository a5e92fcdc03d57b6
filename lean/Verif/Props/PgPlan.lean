import Verif.Props.PgAlter

/-!
# The files of a Postgres migration are read back (C66): all of them
-/

namespace Sqddl.Postgres
open Go SqlSpec DdlText CatalogSpec Sqddl.Render Sqddl.Files PgText
open Sqddl.Wipe (qualified buffer addStmt)
open PgText (Act Stmt readStmt readAct)

/-! ## The statements that a migration stands for -/

/-- An ALTER TABLE of one part. -/
def alterOne (cur s n : Str) (a : Act) : PgText.Stmt := .alter (fullName cur s n) [a]

/-- The change of type and collation of a column. -/
def typeActs (e : Env) (s t : Column) : List Act :=
  if normType .postgres s.columnType ≠ normType .postgres t.columnType then
    [.setType t.columnName ((toks .postgres t.columnType).map foldTok)
      (if t.collationName ≠ [] ∧ t.collationName ≠ e.coll then some (.quoted t.collationName) else none)]
  else if collationOr e.coll s.collationName ≠ collationOr e.coll t.collationName then
    [.setType t.columnName ((toks .postgres t.columnType).map foldTok)
      (some (.quoted t.collationName))]
  else []

/-- The change of the default of a column. -/
def defaultActs (e : Env) (s t : Column) : List Act :=
  let sd := normalizeColumnDefault .postgres s.columnDefault
  let td := normalizeColumnDefault .postgres t.columnDefault
  if sd ≠ [] ∧ td = [] then [.dropDefault t.columnName]
  else if (sd = [] ∧ td ≠ []) ∨
      (isLiteral e.isFloat sd = true ∧ isLiteral e.isFloat td = true ∧ sd ≠ td) then
    [.setDefault t.columnName (toks .postgres td)]
  else []

/-- The name of the CHECK that stands for NOT NULL. -/
def checkName (c : Column) : Str := c.tableName ++ b!"_" ++ c.columnName ++ b!"_not_null_check"

/-- The change of NOT NULL of a column. -/
def notNullActs (e : Env) (s t : Column) : List Act :=
  if s.isNotNull && !t.isNotNull then [.dropNotNull t.columnName]
  else if !s.isNotNull && t.isNotNull then
    if lowerThan e.version [12] then [.setNotNull t.columnName]
    else [.addConstraint (notNullCon (checkName t) t.columnName)]
  else []

/-- The change of the identity of a column. -/
def identityActs (s t : Column) : List Act :=
  if s.columnIdentity ≠ [] ∧ t.columnIdentity = [] then [.dropIdentity t.columnName]
  else if s.columnIdentity = [] ∧ t.columnIdentity ≠ [] then
    [.addIdentity t.columnName (toks .postgres t.columnIdentity)]
  else []

/-- The changes of a column. -/
def columnActs (e : Env) (p : Column × Column) : List Act :=
  typeActs e p.1 p.2 ++ defaultActs e p.1 p.2 ++ notNullActs e p.1 p.2 ++ identityActs p.1 p.2

/-- The parts of the first file of an ALTER TABLE, after the indexes are dropped. -/
def alterActs (e : Env) (a : AlterTable) : List Act :=
  a.dropConstraints.map (fun c => .dropConstraint true c.constraintName) ++
  a.dropColumns.map (fun c => .dropColumn c.columnName) ++
  a.addColumns.map (fun c => .addColumn (colOf .postgres e.coll false c)) ++
  a.alterColumns.flatMap (columnActs e) ++
  a.alterConstraints.map fun p =>
    .alterConstraint p.2.constraintName p.2.isDeferrable p.2.isInitiallyDeferred

/-- The parts that make a column NOT NULL. -/
def validateActs (c : Column) : List Act :=
  [.validate (checkName c), .setNotNull c.columnName, .dropConstraint false (checkName c)]

/-- The statements for the changes of a table. -/
def alterOf (e : Env) (a : AlterTable) : List PgText.Stmt :=
  let one := alterOne e.cur a.destTable.tableSchema a.destTable.tableName
  a.dropIndexes.map (fun x => .dropIndex (fullName e.cur x.tableSchema x.indexName)) ++
  (alterActs e a).map one ++
  a.validateNotNull.flatMap (fun c => (validateActs c).map one) ++
  a.createIndexes.map (fun x => .base (createIndexOf .postgres e.cur true x)) ++
  a.addConstraints.flatMap fun c =>
    [.base (createIndexOf .postgres e.cur true (keyIndex c)),
     one (.addKeyUsing c.constraintName (decide (c.constraintType = b!"PRIMARY KEY")) c.constraintName)]

/-- The statements for a table that is created. -/
def createOf (e : Env) (t : Table) : List PgText.Stmt :=
  .base (createTableOf .postgres e.cur e.coll true t) ::
    t.indexes.map fun x => .base (createIndexOf .postgres e.cur false x)

/-- An ALTER TABLE of the table of the first foreign key of a group. -/
def groupAlter (e : Env) (g : List Constraint) (a : Constraint → Act) : List PgText.Stmt :=
  g.map fun c => alterOne e.cur (firstFkey g).tableSchema (firstFkey g).tableName (a c)

/-- The statements that a Postgres migration stands for. -/
def plan (e : Env) (evs : List Ev) : List PgText.Stmt :=
  (groupFkeys (evs.filterMap Ev.dropFkey?)).flatMap (fun g =>
    groupAlter e g fun c => .dropConstraint true c.constraintName) ++
  (evs.filterMap Ev.dropSchema?).map (fun s => .dropSchemaCascade s.schemaName) ++
  (evs.filterMap Ev.createSchema?).map (fun s => .base (.createSchema s)) ++
  (evs.filterMap Ev.dropTable?).map (fun t =>
    .base (.dropTable (fullName e.cur t.tableSchema t.tableName))) ++
  (evs.filterMap Ev.createTable?).flatMap (createOf e) ++
  (evs.filterMap Ev.alter?).flatMap (alterOf e) ++
  (groupFkeys (evs.filterMap Ev.addFastFkey?)).flatMap (fun g =>
    groupAlter e g fun c => .addConstraint (conOf .postgres e.cur c)) ++
  (groupFkeys (evs.filterMap Ev.addFkey?)).flatMap fun g =>
    (groupAlter e g fun c => .addConstraint (withValid true (conOf .postgres e.cur c))) ++
    groupAlter e g fun c => .validate c.constraintName

/-! ## What can be expressed -/

/-- A name of an object: schema and name. -/
def NameText (s n : Str) : Prop := (s ≠ [] → PlainName .postgres s) ∧ PlainName .postgres n

/-- A column whose change can be expressed; `t` is the column as it is to be. -/
structure ColumnText (t : Column) : Prop where
  self : SelfName (keywords .postgres) t.columnName
  type : ClauseText .postgres t.columnType
  collation : ¬ HasInnerPair '"' t.collationName
  default : normalizeColumnDefault .postgres t.columnDefault ≠ [] →
    Fragment .postgres (normalizeColumnDefault .postgres t.columnDefault) ∧
    flat 0 (toks .postgres (normalizeColumnDefault .postgres t.columnDefault)) ∧
    toks .postgres (normalizeColumnDefault .postgres t.columnDefault) ≠ []
  identity : t.columnIdentity ≠ [] → Fragment .postgres t.columnIdentity ∧
    toks .postgres t.columnIdentity ∈ identities .postgres
  check : PlainName .postgres (checkName t)

/-- Changes of a table that can be expressed. -/
structure AlterText (e : Env) (a : AlterTable) : Prop where
  table : NameText a.destTable.tableSchema a.destTable.tableName
  dropIndexes : ∀ x ∈ a.dropIndexes, NameText x.tableSchema x.indexName
  dropConstraints : ∀ c ∈ a.dropConstraints, PlainName .postgres c.constraintName
  dropColumns : ∀ c ∈ a.dropColumns, PlainName .postgres c.columnName
  addColumns : ∀ c ∈ a.addColumns, ColumnOk .postgres e.coll false c
  alterColumns : ∀ p ∈ a.alterColumns, ColumnText p.2
  alterConstraints : ∀ p ∈ a.alterConstraints, PlainName .postgres p.2.constraintName
  validateNotNull : ∀ c ∈ a.validateNotNull, PlainName .postgres (checkName c) ∧
    PlainName .postgres c.columnName
  createIndexes : ∀ x ∈ a.createIndexes, x.sql = [] ∧ IndexOk .postgres false x
  addConstraints : ∀ c ∈ a.addConstraints, PlainName .postgres c.constraintName ∧
    (c.constraintType = b!"PRIMARY KEY" ∨ c.constraintType = b!"UNIQUE") ∧
    IndexOk .postgres false (keyIndex c)

/-- A migration that can be expressed. -/
structure PlanText (e : Env) (evs : List Ev) : Prop where
  dropFkeys : ∀ c ∈ evs.filterMap Ev.dropFkey?, NameText c.tableSchema c.tableName ∧
    PlainName .postgres c.constraintName
  dropSchemas : ∀ s ∈ evs.filterMap Ev.dropSchema?, PlainName .postgres s.schemaName
  createSchemas : ∀ s ∈ evs.filterMap Ev.createSchema?, PlainName .postgres s
  dropTables : ∀ t ∈ evs.filterMap Ev.dropTable?, NameText t.tableSchema t.tableName
  createTables : ∀ t ∈ evs.filterMap Ev.createTable?, TableText .postgres e.cur e.coll t ∧
    ∀ x ∈ t.indexes, x.sql = [] ∧ IndexOk .postgres false x
  alters : ∀ a ∈ evs.filterMap Ev.alter?, AlterText e a
  addFastFkeys : ∀ c ∈ evs.filterMap Ev.addFastFkey?, NameText c.tableSchema c.tableName ∧
    ConstraintOk .postgres e.cur c
  addFkeys : ∀ c ∈ evs.filterMap Ev.addFkey?, NameText c.tableSchema c.tableName ∧
    PlainName .postgres c.constraintName ∧ ConstraintOk .postgres e.cur c

/-! ## Reading back -/

/-- An ALTER TABLE of one part, as it is written. -/
theorem isScript_one (e : Env) {s n part text : Str} {a : Act} (hn : NameText s n)
    (h : IsAct e.cur s part a)
    (ht : text = b!"ALTER TABLE " ++ tableSql e s n ++ (b!" " ++ part) ++ b!";\n") :
    text ≠ [] ∧ IsScript e.cur text [alterOne e.cur s n a] := by
  subst ht
  exact isScript_alter hn.1 hn.2 h b!";\n" gap_semi

theorem flatMap_one {α β : Type} (xs : List α) (g : α → β) : xs.flatMap (fun x => [g x]) = xs.map g := by
  induction xs with
  | nil => rfl
  | cons x xs ih => rw [List.flatMap_cons, ih]; rfl

/-- Several parts of one table. -/
theorem texts_acts {α : Type} (e : Env) {s n : Str} (xs : List α) (f : α → Str) (g : α → Act)
    (part : α → Str) (hn : NameText s n) (h : ∀ x ∈ xs, IsAct e.cur s (part x) (g x))
    (ht : ∀ x ∈ xs, f x = b!"ALTER TABLE " ++ tableSql e s n ++ (b!" " ++ part x) ++ b!";\n") :
    Texts e.cur (xs.map f) ((xs.map g).map (alterOne e.cur s n)) := by
  have := Texts.map (cur := e.cur) xs f (fun x => [alterOne e.cur s n (g x)])
    fun x hx => isScript_one e hn (h x hx) (ht x hx)
  rw [List.map_map]
  have e2 := flatMap_one xs ((alterOne e.cur s n) ∘ g)
  rwa [← e2]

theorem quiet_mono (ks ks' : List Str) (h : ∀ k ∈ ks', k ∈ ks) (n : Nat) (ts : List Tok)
    (hq : quiet ks n ts) : quiet ks' n ts := by
  induction ts generalizing n with
  | nil => rfl
  | cons t r ih =>
    simp only [quiet, Bool.and_eq_true, Bool.not_eq_true', Bool.and_eq_false_iff] at hq ⊢
    refine ⟨?_, ih _ hq.2⟩
    rcases hq.1 with h1 | h1
    · exact Or.inl h1
    · right
      rw [List.any_eq_false] at h1 ⊢
      exact fun k hk => h1 k (h k hk)

/-- The texts for the change of a column. -/
theorem texts_column (e : Env) (s n : Str) (hn : NameText s n) (p : Column × Column)
    (h : ColumnText p.2) :
    Texts e.cur (alterColumnStmts e (b!"ALTER TABLE " ++ tableSql e s n) p)
      ((columnActs e p).map (alterOne e.cur s n)) := by
  obtain ⟨x, t⟩ := p
  have hs := h.self
  have hq := quiet_mono stops [b!"COLLATE"] (by decide) 0 _ h.type.quiet
  have one : ∀ (part text : Str) (a : Act), IsAct e.cur s part a →
      text = b!"ALTER TABLE " ++ tableSql e s n ++ (b!" " ++ part) ++ b!";\n" →
      Texts e.cur [text] ([a].map (alterOne e.cur s n)) := by
    intro part text a ha ht
    have := isScript_one e hn ha ht
    exact Texts.one this.1 this.2
  unfold alterColumnStmts columnActs
  simp only [List.map_append]
  refine ((Texts.append ?_ ?_).append ?_).append ?_
  · unfold alterTypeStmts typeActs
    split
    · have hc := isAct_type e.cur s t.columnName t.columnType
        (if t.collationName ≠ [] ∧ t.collationName ≠ e.coll then some t.collationName else none)
        hs h.type.fragment h.type.flat hq (by
          intro y hy
          split at hy
          · cases hy; exact h.collation
          · cases hy)
      split at hc
      · rename_i hb
        rw [if_pos hb]
        refine one _ _ _ hc ?_
        simp [opt, hb, collText, List.append_assoc]
      · rename_i hb
        rw [if_neg hb]
        refine one _ _ _ hc ?_
        simp [opt, hb, collText, List.append_assoc]
    split
    · have hc := isAct_type e.cur s t.columnName t.columnType (some t.collationName)
        hs h.type.fragment h.type.flat hq (by
          intro y hy; cases hy; exact h.collation)
      refine one _ _ _ hc ?_
      simp [collText, List.append_assoc]
    · exact .nil
  · unfold alterDefaultStmts defaultActs
    simp only
    split
    · refine one _ _ _ (isAct_dropDefault e.cur s t.columnName hs) ?_
      simp [List.append_assoc]
    split
    · rename_i h1 h2
      have h0 : normalizeColumnDefault .postgres t.columnDefault ≠ [] := by
        rcases h2 with h2 | h2
        · exact h2.2
        · intro e0
          by_cases e1 : normalizeColumnDefault .postgres x.columnDefault = []
          · rw [e0, e1] at h2; exact h2.2.2 rfl
          · exact h1 ⟨e1, e0⟩
      obtain ⟨d1, d2, d3⟩ := h.default h0
      refine one _ _ _ (isAct_setDefault e.cur s t.columnName _ hs d1 d2 d3) ?_
      simp [List.append_assoc]
    · exact .nil
  · unfold alterNotNullStmts notNullActs
    split
    · refine one _ _ _ (isAct_dropNotNull e.cur s t.columnName hs) ?_
      simp [List.append_assoc]
    split
    · split
      · refine one _ _ _ (isAct_setNotNull e.cur s t.columnName hs) ?_
        simp [List.append_assoc]
      · refine one _ _ _ (isAct_notNullCheck e.cur s (checkName t) t.columnName h.check hs) ?_
        simp [notNullCheck, checkName, List.append_assoc]
    · exact .nil
  · unfold alterIdentityStmts identityActs
    split
    · refine one _ _ _ (isAct_dropIdentity e.cur s t.columnName hs) ?_
      simp [List.append_assoc]
    split
    · rename_i h2
      obtain ⟨i1, i2⟩ := h.identity h2.2
      refine one _ _ _ (isAct_addIdentity e.cur s t.columnName _ hs i1 i2) ?_
      simp [List.append_assoc]
    · exact .nil

/-- The texts of the first file of an ALTER TABLE. -/
theorem texts_alter (e : Env) (a : AlterTable) (h : AlterText e a) :
    Texts e.cur (alterStmts e a)
      (a.dropIndexes.map (fun x => .dropIndex (fullName e.cur x.tableSchema x.indexName)) ++
        (alterActs e a).map (alterOne e.cur a.destTable.tableSchema a.destTable.tableName)) := by
  unfold alterStmts alterActs
  simp only [List.map_append, ← List.append_assoc]
  refine ((((Texts.append ?_ ?_).append ?_).append ?_).append ?_).append ?_
  · have := Texts.map (cur := e.cur) a.dropIndexes (dropIndex e)
      (fun x => [.dropIndex (fullName e.cur x.tableSchema x.indexName)]) (by
        intro x hx
        obtain ⟨h1, h2⟩ := h.dropIndexes x hx
        have p := (reads_lit .postgres b!"DROP INDEX IF EXISTS " (by decide) (by decide)).append_p
          (readsP_qualified .postgres e.cur x.tableSchema x.indexName)
        have e4 : stoks b!"DROP INDEX IF EXISTS " = [.word b!"DROP", .word b!"INDEX", .word b!"IF",
          .word b!"EXISTS"] := by decide
        rw [e4] at p
        refine isScript_of _ p ?_ gap_semi ?_
        · exact bal_append0 _ _ (by rfl) (flat_bal _ _ (flat_qname .postgres _))
        · have := readStmt_dropIndex (tableName e.cur x.tableSchema x.indexName)
            (tableName_plain .postgres e.cur _ _ h1) h2
          have := congrArg (Option.map (PgText.Stmt.resolve e.cur)) this
          simpa [PgText.Stmt.resolve, full_tableName] using this)
    rwa [flatMap_one] at this
  · exact texts_acts e _ _ _ (fun c => b!"DROP CONSTRAINT IF EXISTS " ++
        quoteIdentifier .postgres c.constraintName) h.table
      (fun c hc => isAct_dropConstraintIf _ _ _ (h.dropConstraints c hc))
      (fun c _ => by simp [alterPrefix, List.append_assoc])
  · exact texts_acts e _ _ _ (fun c => b!"DROP COLUMN IF EXISTS " ++
        quoteIdentifier .postgres c.columnName) h.table
      (fun c hc => isAct_dropColumn _ _ _ (h.dropColumns c hc))
      (fun c _ => by simp [alterPrefix, List.append_assoc])
  · exact texts_acts e _ _ _ (fun c => b!"ADD COLUMN " ++ columnDef .postgres e.coll c false) h.table
      (fun c hc => isAct_addColumn _ _ _ _ (h.addColumns c hc))
      (fun c _ => by simp [alterPrefix, List.append_assoc])
  · rw [List.map_flatMap]
    exact Texts.flatMap _ _ _ fun p hp => texts_column e _ _ h.table p (h.alterColumns p hp)
  · exact texts_acts e _ _ _ (fun p => b!"ALTER CONSTRAINT " ++
        quoteIdentifier .postgres p.2.constraintName ++
        ((if p.2.isDeferrable then b!" DEFERRABLE" else b!" NOT DEFERRABLE") ++
          opt p.2.isInitiallyDeferred b!" INITIALLY DEFERRED")) h.table
      (fun p hp => isAct_alterConstraint _ _ _ (h.alterConstraints p hp) _ _)
      (fun c _ => by simp [alterPrefix, alterConstraint, List.append_assoc])

/-- The text that makes a column NOT NULL. -/
theorem isScript_validate (e : Env) (a : AlterTable) (ha : NameText a.destTable.tableSchema
    a.destTable.tableName) (c : Column) (h1 : PlainName .postgres (checkName c))
    (h2 : PlainName .postgres c.columnName) :
    validateNotNull e a c ≠ [] ∧ IsScript e.cur (validateNotNull e a c)
      ((validateActs c).map (alterOne e.cur a.destTable.tableSchema a.destTable.tableName)) := by
  have s1 := isScript_one e (text := alterPrefix e a ++ b!" VALIDATE CONSTRAINT " ++
    notNullCheck c ++ b!";\n") ha (isAct_validate e.cur a.destTable.tableSchema _ h1)
    (by simp [alterPrefix, notNullCheck, checkName, List.append_assoc])
  have s2 := isScript_one e (text := alterPrefix e a ++ b!" ALTER COLUMN " ++
    quoteIdentifier .postgres c.columnName ++ b!" SET NOT NULL;\n") ha
    (isAct_setNotNull_quoted e.cur a.destTable.tableSchema _ h2)
    (by simp [alterPrefix, List.append_assoc])
  have s3 := isScript_one e (text := alterPrefix e a ++ b!" DROP CONSTRAINT " ++
    notNullCheck c ++ b!";\n") ha (isAct_dropConstraint e.cur a.destTable.tableSchema _ h1)
    (by simp [alterPrefix, notNullCheck, checkName, List.append_assoc])
  refine ⟨?_, (s1.2.append s2.2).append s3.2⟩
  unfold validateNotNull
  simp [alterPrefix]

/-- The statements of a step, when its file is run. -/
def readStep (cur : Str) (st : List File) : Option (List PgText.Stmt) :=
  PgText.runScript (keywords .postgres) cur (st.headD ([], [])).2

theorem readStep_buffer {cur name : Str} {ss : List Str} {sts : List PgText.Stmt} {r : List File}
    (h : Texts cur ss sts) : readStep cur ((name, buffer ss) :: r) = some sts := h.script.run

theorem readStep_one {cur name s : Str} {sts : List PgText.Stmt} {r : List File}
    (h : s ≠ [] ∧ IsScript cur s sts) : readStep cur ((name, s) :: r) = some sts := h.2.run

theorem createIndex_isScript (cur : Str) (conc : Bool) (x : Index) (h0 : x.sql = [])
    (h : IndexOk .postgres false x) : createIndex .postgres cur x conc ≠ [] ∧
    IsScript cur (createIndex .postgres cur x conc) [.base (createIndexOf .postgres cur conc x)] :=
  isScript_base (createIndex_reads_back .postgres cur conc x h0 h) (by intro n as e; cases e)

/-- The steps read as statements. -/
def StepsRead (cur : Str) (sts : List (List File)) (out : List PgText.Stmt) : Prop :=
  (sts.mapM (readStep cur)).map List.flatten = some out

theorem StepsRead.nil (cur : Str) : StepsRead cur [] [] := rfl

theorem StepsRead.append {cur : Str} {a b : List (List File)} {x y : List PgText.Stmt}
    (h1 : StepsRead cur a x) (h2 : StepsRead cur b y) : StepsRead cur (a ++ b) (x ++ y) := by
  unfold StepsRead at *
  obtain ⟨p, e1, rfl⟩ := Option.map_eq_some_iff.1 h1
  obtain ⟨q, e2, rfl⟩ := Option.map_eq_some_iff.1 h2
  rw [mapM_append' _ _ _ _ _ e1 e2]
  simp

theorem StepsRead.one {cur : Str} {st : List File} {x : List PgText.Stmt}
    (h : readStep cur st = some x) : StepsRead cur [st] x := by
  simp [StepsRead, h]

theorem StepsRead.flatMap {α : Type} {cur : Str} (xs : List α) (f : α → List (List File))
    (g : α → List PgText.Stmt) (h : ∀ x ∈ xs, StepsRead cur (f x) (g x)) :
    StepsRead cur (xs.flatMap f) (xs.flatMap g) := by
  induction xs with
  | nil => exact .nil cur
  | cons x xs ih =>
    simp only [List.flatMap_cons]
    exact (h x (by simp)).append (ih fun y hy => h y (by simp [hy]))

theorem StepsRead.map {α : Type} {cur : Str} (xs : List α) (f : α → List File)
    (g : α → List PgText.Stmt) (h : ∀ x ∈ xs, readStep cur (f x) = some (g x)) :
    StepsRead cur (xs.map f) (xs.flatMap g) := by
  rw [← flatMap_one]
  exact .flatMap xs _ g fun x hx => .one (h x hx)

/-- C66: the files for the changes of a table are read back. -/
theorem alterTableSteps_read_back (e : Env) (a : AlterTable) (h : AlterText e a) :
    StepsRead e.cur (alterTableSteps e a) (alterOf e a) := by
  unfold alterTableSteps alterOf
  refine ((StepsRead.append ?_ ?_).append ?_).append ?_
  · exact .one (readStep_buffer (texts_alter e a h))
  · split
    · rename_i he
      rw [List.isEmpty_iff] at he
      rw [he]; exact .nil _
    · exact .one (readStep_buffer (Texts.map _ _ _ fun c hc =>
        isScript_validate e a h.table c (h.validateNotNull c hc).1 (h.validateNotNull c hc).2))
  · have := StepsRead.map (cur := e.cur) a.createIndexes (createIndexStep e)
      (fun x => [.base (createIndexOf .postgres e.cur true x)]) fun x hx =>
        readStep_one (createIndex_isScript e.cur true x (h.createIndexes x hx).1 (h.createIndexes x hx).2)
    rwa [flatMap_one] at this
  · refine StepsRead.flatMap _ _ _ fun c hc => ?_
    obtain ⟨h1, h2, h3⟩ := h.addConstraints c hc
    refine StepsRead.append (a := [_]) (x := [_]) (.one (readStep_one
      (createIndex_isScript e.cur true (keyIndex c) rfl h3))) (.one (readStep_one ?_))
    refine isScript_one e h.table (isAct_addKeyUsing e.cur _ c.constraintName c.constraintType h1 h2) ?_
    simp [addConstraintUsing, alterPrefix, List.append_assoc]

end Sqddl.Postgres
