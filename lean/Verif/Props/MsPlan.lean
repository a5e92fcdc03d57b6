import Verif.Props.MsScript

/-!
# The files of a SQL Server migration are read back (C66): all of them
-/

namespace Sqddl.Sqlserver
open Go SqlSpec DdlText CatalogSpec Sqddl.Render Sqddl.Files MsText
open Sqddl.Wipe (qualified buffer addStmt)
open MsText (Act Stmt readStmt readAct)

/-! ## The statements that a migration stands for -/

/-- An ALTER TABLE. -/
def alterOne (cur s n : Str) (a : Act) : MsText.Stmt := .alter (fullName cur s n) a

/-- The collation that the change of a column mentions. -/
def collationAct (e : Env) (t : Column) : Option Tok :=
  if t.collationName ≠ [] ∧ t.collationName ≠ e.coll then some (.word t.collationName) else none

/-- NULL or NOT NULL, as the change of a column mentions it. -/
def nullAct (pkey : List Str) (s t : Column) : Option Bool :=
  if pkey.contains t.columnName ∨ t.columnIdentity ≠ [] then some true
  else if s.isNotNull && !t.isNotNull then some false
  else none

/-- The change of a column without its default. -/
def typeActs (e : Env) (pkey : List Str) (s t : Column) : List Act :=
  if normType .sqlserver s.columnType ≠ normType .sqlserver t.columnType ∨
      collationAct e t ≠ none ∨ nullAct pkey s t ≠ none then
    [.alterColumn t.columnName ((toks .sqlserver t.columnType).map foldTok) (collationAct e t)
      (nullAct pkey s t)]
  else []

/-- The change of the default of a column. -/
def defaultOf (e : Env) (a : Table) (s t : Column) : List MsText.Stmt :=
  let sd := normalizeColumnDefault .sqlserver s.columnDefault
  let td := normalizeColumnDefault .sqlserver t.columnDefault
  if sd = td then []
  else
    (if sd ≠ [] then [.dropDefault (alterSchema e a) a.tableName t.columnName
      (fullName e.cur (alterSchema e a) a.tableName)] else []) ++
    (if td ≠ [] then [alterOne e.cur (alterSchema e a) a.tableName
      (.addDefault (toks .sqlserver td) t.columnName)] else [])

/-- The change of a column. -/
def columnOf (e : Env) (a : Table) (p : Column × Column) : List MsText.Stmt :=
  (typeActs e (pkeyColumns a) p.1 p.2).map (alterOne e.cur (alterSchema e a) a.tableName) ++
  defaultOf e a p.1 p.2

/-- The first file for the changes of a table. -/
def alterFileOf (e : Env) (a : AlterTable) : List MsText.Stmt :=
  let one := alterOne e.cur (alterSchema e a.destTable) a.destTable.tableName
  a.dropIndexes.map (fun x =>
    .dropIndex x.indexName (fullName e.cur x.tableSchema x.tableName)) ++
  a.dropConstraints.map (fun c => one (.dropConstraint c.constraintName)) ++
  a.dropColumns.map (fun c => one (.dropColumn c.columnName)) ++
  a.addColumns.map (fun c => one (.addColumn (colOf .sqlserver e.coll false c))) ++
  a.alterColumns.flatMap (columnOf e a.destTable)

/-- The statements for the changes of a table. -/
def alterOf (e : Env) (a : AlterTable) : List MsText.Stmt :=
  alterFileOf e a ++
  a.createIndexes.map (fun x => .base (createIndexOf .sqlserver e.cur true x)) ++
  a.addConstraints.map fun c =>
    alterOne e.cur (alterSchema e a.destTable) a.destTable.tableName
      (.addConstraint (conOf .sqlserver e.cur c))

/-- The statements for a table that is created. -/
def createOf (e : Env) (t : Table) : List MsText.Stmt :=
  .base (createTableOf .sqlserver e.cur e.coll true t) ::
    t.indexes.map fun x => .base (createIndexOf .sqlserver e.cur false x)

/-- A function or a procedure. -/
def routineKind (r : Routine) : Kind := if r.routineType = b!"FUNCTION" then .function else .procedure

/-- The statements for a schema that is dropped. -/
def dropSchemaOf (e : Env) (s : Schema) : List MsText.Stmt :=
  s.views.map (fun v => .drop .view (fullName e.cur s.schemaName v.viewName)) ++
  s.tables.map (fun t => .drop .table (fullName e.cur s.schemaName t.tableName)) ++
  s.routines.map (fun r => .drop (routineKind r) (fullName e.cur s.schemaName r.routineName)) ++
  [.dropSchema s.schemaName]

/-- The statements for a foreign key that is added. -/
def addFkeyOf (e : Env) (c : Constraint) : MsText.Stmt :=
  alterOne e.cur c.tableSchema c.tableName (.addConstraint (conOf .sqlserver e.cur c))

/-- The statements for a foreign key that is dropped. -/
def dropFkeyOf (e : Env) (c : Constraint) : MsText.Stmt :=
  alterOne e.cur c.tableSchema c.tableName (.dropConstraint c.constraintName)

/-- The statements that a SQL Server migration stands for. -/
def plan (e : Env) (evs : List Ev) (fk : MssqlFkeys) : List MsText.Stmt :=
  fk.dropFkeys.groups.flatMap (fun g => g.map (dropFkeyOf e)) ++
  (evs.filterMap Ev.dropSchema?).flatMap (dropSchemaOf e) ++
  (evs.filterMap Ev.createSchema?).map (fun s => .createSchema s s) ++
  (evs.filterMap Ev.dropTable?).map (fun t =>
    .drop .table (fullName e.cur t.tableSchema t.tableName)) ++
  (evs.filterMap Ev.createTable?).flatMap (createOf e) ++
  (evs.filterMap Ev.alter?).flatMap (alterOf e) ++
  fk.addFastFkeys.groups.flatMap (fun g => g.map (addFkeyOf e)) ++
  fk.addFkeys.groups.flatMap fun g => g.map (addFkeyOf e)

/-! ## What can be expressed -/

/-- A name of an object: schema and name. -/
def NameText (s n : Str) : Prop := (s ≠ [] → PlainName .sqlserver s) ∧ PlainName .sqlserver n

/-- A column whose change can be expressed; `t` is the column as it is to be. -/
structure ColumnText (t : Column) : Prop where
  name : PlainName .sqlserver t.columnName
  type : Fragment .sqlserver t.columnType
  flat : flat 0 (toks .sqlserver t.columnType)
  quiet : quiet [b!"COLLATE", b!"NOT", b!"NULL"] 0 (toks .sqlserver t.columnType)
  some : toks .sqlserver t.columnType ≠ []
  collation : t.collationName.all wordChar = true
  default : normalizeColumnDefault .sqlserver t.columnDefault ≠ [] →
    Fragment .sqlserver (normalizeColumnDefault .sqlserver t.columnDefault) ∧
    DdlText.flat 0 (toks .sqlserver (normalizeColumnDefault .sqlserver t.columnDefault)) ∧
    DdlText.quiet [b!"FOR"] 0 (toks .sqlserver (normalizeColumnDefault .sqlserver t.columnDefault)) ∧
    toks .sqlserver (normalizeColumnDefault .sqlserver t.columnDefault) ≠ []

/-- Names that can be written in the strings of the block that drops a default. -/
structure QuoteText (e : Env) (a : Table) (t : Column) : Prop where
  schema : ¬ HasInnerPair '\'' (alterSchema e a)
  table : ¬ HasInnerPair '\'' a.tableName
  column : ¬ HasInnerPair '\'' t.columnName
  name : ¬ HasInnerPair '\'' (tableSql e (alterSchema e a) a.tableName)

/-- Changes of a table that can be expressed. -/
structure AlterText (e : Env) (a : AlterTable) : Prop where
  schema : PlainName .sqlserver (alterSchema e a.destTable)
  table : PlainName .sqlserver a.destTable.tableName
  dropIndexes : ∀ x ∈ a.dropIndexes, NameText x.tableSchema x.tableName ∧
    PlainName .sqlserver x.indexName
  dropConstraints : ∀ c ∈ a.dropConstraints, PlainName .sqlserver c.constraintName
  dropColumns : ∀ c ∈ a.dropColumns, PlainName .sqlserver c.columnName
  addColumns : ∀ c ∈ a.addColumns, ColumnOk .sqlserver e.coll false c
  alterColumns : ∀ p ∈ a.alterColumns, ColumnText p.2 ∧
    (normalizeColumnDefault .sqlserver p.1.columnDefault ≠ [] → QuoteText e a.destTable p.2)
  createIndexes : ∀ x ∈ a.createIndexes, x.sql = [] ∧ IndexOk .sqlserver false x
  addConstraints : ∀ c ∈ a.addConstraints, ConstraintOk .sqlserver e.cur c

/-- A schema that can be dropped. -/
structure DropText (s : Schema) : Prop where
  name : PlainName .sqlserver s.schemaName
  views : ∀ v ∈ s.views, PlainName .sqlserver v.viewName
  tables : ∀ t ∈ s.tables, PlainName .sqlserver t.tableName
  routines : ∀ r ∈ s.routines, PlainName .sqlserver r.routineName

/-- A schema that can be created. -/
structure SchemaText (n : Str) : Prop where
  name : PlainName .sqlserver n
  quotes : ¬ HasInnerPair '\'' n
  ident : ¬ HasInnerPair '\'' (quoteIdentifier .sqlserver n)

/-- A foreign key that can be added. -/
def FkeyText (e : Env) (c : Constraint) : Prop :=
  NameText c.tableSchema c.tableName ∧ ConstraintOk .sqlserver e.cur c

/-- A migration that can be expressed. -/
structure PlanText (e : Env) (evs : List Ev) (fk : MssqlFkeys) : Prop where
  dropFkeys : ∀ g ∈ fk.dropFkeys.groups, ∀ c ∈ g, NameText c.tableSchema c.tableName ∧
    PlainName .sqlserver c.constraintName
  dropSchemas : ∀ s ∈ evs.filterMap Ev.dropSchema?, DropText s
  createSchemas : ∀ s ∈ evs.filterMap Ev.createSchema?, SchemaText s
  dropTables : ∀ t ∈ evs.filterMap Ev.dropTable?, NameText t.tableSchema t.tableName
  createTables : ∀ t ∈ evs.filterMap Ev.createTable?, TableText .sqlserver e.cur e.coll t ∧
    ∀ x ∈ t.indexes, x.sql = [] ∧ IndexOk .sqlserver false x
  alters : ∀ a ∈ evs.filterMap Ev.alter?, AlterText e a
  addFastFkeys : ∀ g ∈ fk.addFastFkeys.groups, ∀ c ∈ g, FkeyText e c
  addFkeys : ∀ g ∈ fk.addFkeys.groups, ∀ c ∈ g, FkeyText e c

/-! ## Reading back -/

/-- An ALTER TABLE, as it is written. -/
theorem isScript_one (e : Env) {s n part text : Str} {a : Act} (hn : NameText s n)
    (h : IsAct e.cur s part a)
    (ht : text = b!"ALTER TABLE " ++ tableSql e s n ++ (b!" " ++ part) ++ b!";\n") :
    text ≠ [] ∧ IsScript e.cur text [alterOne e.cur s n a] := by
  subst ht
  exact isScript_alter hn.1 hn.2 h

/-- Words are written without quotes, and are not escaped. -/
theorem alterCollation_eq (e : Env) (t : Column) (h : t.collationName.all wordChar = true) :
    alterCollation e t =
      if t.collationName ≠ [] ∧ t.collationName ≠ e.coll then t.collationName else [] := by
  have e1 : escapeQuote '[' t.collationName = t.collationName := by
    have hq : t.collationName.all (· != '[') = true := by
      simp only [List.all_eq_true] at h ⊢
      intro c hc
      have := h c hc
      simp only [bne_iff_ne, ne_eq]
      intro e; subst e; revert this; decide
    rw [escapeQuote_eq_doubleAll, doubleAll_plain _ _ hq]
    rintro ⟨a, c, b, hb⟩
    rw [hb] at hq
    simp at hq
  unfold alterCollation
  rw [e1]

/-- A part that changes a column. -/
theorem isAct_alterColumn (cur owner : Str) (t : Column) (h : ColumnText t) (o : Option Str)
    (ho : ∀ s ∈ o, s ≠ [] ∧ s.all wordChar = true) (z : Option Bool) (zs : Str)
    (hz : (z = none ∧ zs = []) ∨ (z = some false ∧ zs = b!" NULL") ∨
      (z = some true ∧ zs = b!" NOT NULL")) :
    IsAct cur owner (b!"ALTER COLUMN " ++ quoteIdentifier .sqlserver t.columnName ++ b!" " ++
      t.columnType ++ (o.toList.flatMap fun s => b!" COLLATE " ++ s) ++ zs)
      (.alterColumn t.columnName ((toks .sqlserver t.columnType).map foldTok) (o.map Tok.word) z) := by
  have pz : Piece .sqlserver zs (nullToks z) := by
    rcases hz with ⟨rfl, rfl⟩ | ⟨rfl, rfl⟩ | ⟨rfl, rfl⟩
    · exact Piece.nil _
    · exact Piece.lit .sqlserver b!" NULL" _ (by decide)
    · exact Piece.lit .sqlserver b!" NOT NULL" _ (by decide)
  have pc : Piece .sqlserver (o.toList.flatMap fun s => b!" COLLATE " ++ s)
      (collToks (o.map Tok.word)) := by
    cases o with
    | none => exact Piece.nil _
    | some s =>
      obtain ⟨h0, h1⟩ := ho s rfl
      have := Piece.lit_then .sqlserver b!" COLLATE " [.word b!"COLLATE"] _ _ (by decide)
        (reads_word .sqlserver s h0 h1).readsP
      simpa [collToks] using this
  have p := (reads_lit .sqlserver b!"ALTER COLUMN " (by decide) (by decide)).append_p
    ((readsP_ident .sqlserver t.columnName).piece
      ((Piece.lit_then .sqlserver b!" " [] _ _ (by decide) (readsP_toks h.type)).append (pc.append pz)))
  have e : stoks b!"ALTER COLUMN " = [.word b!"ALTER", .word b!"COLUMN"] := by decide
  rw [e] at p
  simp only [List.nil_append] at p
  simp only [List.append_assoc] at p ⊢
  refine ⟨_, _, p, ?_, readAct_alterColumn _ h.name _ h.flat h.quiet h.some _ z, rfl, by simp⟩
  refine flat_append0 _ _ (by rfl) (flat_append0 _ _ (flat_ident .sqlserver _)
    (flat_append0 _ _ h.flat (flat_append0 _ _ ?_ ?_)))
  · cases o <;> rfl
  · rcases hz with ⟨rfl, _⟩ | ⟨rfl, _⟩ | ⟨rfl, _⟩ <;> rfl

theorem isAct_addDefault (cur owner n d : Str) (hn : PlainName .sqlserver n)
    (hd : Fragment .sqlserver d) (hf : flat 0 (toks .sqlserver d))
    (hq : quiet [b!"FOR"] 0 (toks .sqlserver d)) (h0 : toks .sqlserver d ≠ []) :
    IsAct cur owner (b!"ADD DEFAULT " ++ d ++ b!" FOR " ++ quoteIdentifier .sqlserver n)
      (.addDefault (toks .sqlserver d) n) := by
  have p := (reads_lit .sqlserver b!"ADD DEFAULT " (by decide) (by decide)).append_p
    ((readsP_toks hd).piece (Piece.lit_then .sqlserver b!" FOR " [.word b!"FOR"] _ _ (by decide)
      (readsP_ident .sqlserver n)))
  have e : stoks b!"ADD DEFAULT " = [.word b!"ADD", .word b!"DEFAULT"] := by decide
  rw [e] at p
  simp only [List.append_assoc] at p ⊢
  refine ⟨_, _, p, ?_, readAct_addDefault _ n hn hf hq h0, rfl, by simp⟩
  exact flat_append0 _ _ (by rfl) (flat_append0 _ _ hf (flat_append0 _ _ (by rfl)
    (flat_ident .sqlserver n)))

theorem flatMap_one {α β : Type} (xs : List α) (g : α → β) : xs.flatMap (fun x => [g x]) = xs.map g := by
  induction xs with
  | nil => rfl
  | cons x xs ih => rw [List.flatMap_cons, ih]; rfl

/-- The texts for the change of a column. -/
theorem texts_column (e : Env) (a : Table) (hs : PlainName .sqlserver (alterSchema e a))
    (hn : PlainName .sqlserver a.tableName) (p : Column × Column) (h : ColumnText p.2)
    (hq : normalizeColumnDefault .sqlserver p.1.columnDefault ≠ [] → QuoteText e a p.2) :
    Texts e.cur (alterColumnStmts e a p) (columnOf e a p) := by
  obtain ⟨s, t⟩ := p
  have hname : NameText (alterSchema e a) a.tableName := ⟨fun _ => hs, hn⟩
  unfold alterColumnStmts columnOf
  refine Texts.append ?_ ?_
  · unfold alterTypeStmts typeActs
    simp only
    have hc := alterCollation_eq e t h.collation
    have c1 : alterCollation e t ≠ [] ↔ collationAct e t ≠ none := by
      rw [hc]; unfold collationAct
      split
      · rename_i h; simp [h.1]
      · simp
    have n1 : nullability (pkeyColumns a) s t ≠ [] ↔ nullAct (pkeyColumns a) s t ≠ none := by
      unfold nullability nullAct
      split
      · simp
      · split <;> simp
    have c2 : normType .sqlserver s.columnType ≠ normType .sqlserver t.columnType ∨
        alterCollation e t ≠ [] ∨ nullability (pkeyColumns a) s t ≠ [] ↔
        normType .sqlserver s.columnType ≠ normType .sqlserver t.columnType ∨
        collationAct e t ≠ none ∨ nullAct (pkeyColumns a) s t ≠ none := by rw [c1, n1]
    by_cases hb : normType .sqlserver s.columnType ≠ normType .sqlserver t.columnType ∨
        collationAct e t ≠ none ∨ nullAct (pkeyColumns a) s t ≠ none
    · rw [if_pos hb, if_pos (c2.2 hb)]
      let o : Option Str :=
        if t.collationName ≠ [] ∧ t.collationName ≠ e.coll then some t.collationName else none
      have ho : o.map Tok.word = collationAct e t := by
        unfold collationAct; simp only [o]; split <;> rfl
      have ho2 : (o.toList.flatMap fun s => b!" COLLATE " ++ s) =
          opt (decide (alterCollation e t ≠ [])) (b!" COLLATE " ++ alterCollation e t) := by
        rw [hc]; simp only [o, opt]
        split
        · rename_i h; simp [h.1]
        · simp
      have hz : (nullAct (pkeyColumns a) s t = none ∧
          opt (decide (nullability (pkeyColumns a) s t ≠ [])) (b!" " ++ nullability (pkeyColumns a) s t) = []) ∨
          (nullAct (pkeyColumns a) s t = some false ∧
          opt (decide (nullability (pkeyColumns a) s t ≠ [])) (b!" " ++ nullability (pkeyColumns a) s t) = b!" NULL") ∨
          (nullAct (pkeyColumns a) s t = some true ∧
          opt (decide (nullability (pkeyColumns a) s t ≠ [])) (b!" " ++ nullability (pkeyColumns a) s t) = b!" NOT NULL") := by
        unfold nullAct nullability
        split
        · exact Or.inr (Or.inr ⟨rfl, by simp [opt]⟩)
        · split
          · exact Or.inr (Or.inl ⟨rfl, by simp [opt]⟩)
          · exact Or.inl ⟨rfl, by simp [opt]⟩
      have act := isAct_alterColumn e.cur (alterSchema e a) t h o (by
        intro x hx
        simp only [o] at hx
        split at hx
        · rename_i h1; cases hx; exact ⟨h1.1, h.collation⟩
        · cases hx) _ _ hz
      rw [ho, ho2] at act
      refine Texts.one (isScript_one e hname act ?_)
      simp [alterPrefix, List.append_assoc]
    · rw [if_neg hb, if_neg fun hx => hb (c2.1 hx)]
      exact .nil
  · unfold alterDefaultStmts defaultOf
    simp only
    split
    · exact .nil
    · refine Texts.append ?_ ?_
      · split
        · rename_i h0
          have q := hq h0
          exact Texts.one (dropDefault_isScript e a t hs hn q.schema q.table q.column q.name)
        · exact .nil
      · split
        · rename_i h0
          obtain ⟨d1, d2, d3, d4⟩ := h.default h0
          refine Texts.one (isScript_one e hname (isAct_addDefault e.cur _ t.columnName _ h.name
            d1 d2 d3 d4) ?_)
          simp [alterPrefix, List.append_assoc]
        · exact .nil

/-- The texts of the first file of an ALTER TABLE. -/
theorem texts_alter (e : Env) (a : AlterTable) (h : AlterText e a) :
    Texts e.cur (alterStmts e a) (alterFileOf e a) := by
  have hname : NameText (alterSchema e a.destTable) a.destTable.tableName :=
    ⟨fun _ => h.schema, h.table⟩
  unfold alterStmts alterFileOf
  refine (((Texts.append ?_ ?_).append ?_).append ?_).append ?_
  · exact Texts.map _ _ _ fun x hx => dropIndex_isScript e x (h.dropIndexes x hx).2
      (h.dropIndexes x hx).1.1 (h.dropIndexes x hx).1.2
  · exact Texts.map _ _ _ fun c hc => isScript_one e hname
      (isAct_dropConstraint _ _ _ (h.dropConstraints c hc)) (by simp [alterPrefix, List.append_assoc])
  · exact Texts.map _ _ _ fun c hc => isScript_one e hname
      (isAct_dropColumn _ _ _ (h.dropColumns c hc)) (by simp [alterPrefix, List.append_assoc])
  · exact Texts.map _ _ _ fun c hc => isScript_one e hname
      (isAct_addColumn _ _ _ _ (h.addColumns c hc)) (by simp [alterPrefix, List.append_assoc])
  · exact Texts.flatMap _ _ _ fun p hp => texts_column e _ h.schema h.table p
      (h.alterColumns p hp).1 (h.alterColumns p hp).2

/-- The statements of a step, when its file is run. -/
def readStep (cur : Str) (st : List File) : Option (List MsText.Stmt) :=
  MsText.runScript (keywords .sqlserver) cur (st.headD ([], [])).2

theorem readStep_buffer {cur name : Str} {ss : List Str} {sts : List MsText.Stmt} {r : List File}
    (h : Texts cur ss sts) : readStep cur ((name, buffer ss) :: r) = some sts := h.script.run

theorem readStep_one {cur name s : Str} {sts : List MsText.Stmt} {r : List File}
    (h : s ≠ [] ∧ IsScript cur s sts) : readStep cur ((name, s) :: r) = some sts := h.2.run

theorem createIndex_isScript (cur : Str) (conc : Bool) (x : Index) (h0 : x.sql = [])
    (h : IndexOk .sqlserver false x) : createIndex .sqlserver cur x conc ≠ [] ∧
    IsScript cur (createIndex .sqlserver cur x conc) [.base (createIndexOf .sqlserver cur conc x)] :=
  isScript_base (createIndex_reads_back .sqlserver cur conc x h0 h) (Or.inr ⟨_, rfl⟩)

/-- The steps read as statements. -/
def StepsRead (cur : Str) (sts : List (List File)) (out : List MsText.Stmt) : Prop :=
  (sts.mapM (readStep cur)).map List.flatten = some out

theorem StepsRead.nil (cur : Str) : StepsRead cur [] [] := rfl

theorem StepsRead.append {cur : Str} {a b : List (List File)} {x y : List MsText.Stmt}
    (h1 : StepsRead cur a x) (h2 : StepsRead cur b y) : StepsRead cur (a ++ b) (x ++ y) := by
  unfold StepsRead at *
  obtain ⟨p, e1, rfl⟩ := Option.map_eq_some_iff.1 h1
  obtain ⟨q, e2, rfl⟩ := Option.map_eq_some_iff.1 h2
  rw [List.mapM_append, e1, e2]
  simp

theorem StepsRead.one {cur : Str} {st : List File} {x : List MsText.Stmt}
    (h : readStep cur st = some x) : StepsRead cur [st] x := by
  simp [StepsRead, h]

theorem StepsRead.flatMap {α : Type} {cur : Str} (xs : List α) (f : α → List (List File))
    (g : α → List MsText.Stmt) (h : ∀ x ∈ xs, StepsRead cur (f x) (g x)) :
    StepsRead cur (xs.flatMap f) (xs.flatMap g) := by
  induction xs with
  | nil => exact .nil cur
  | cons x xs ih =>
    simp only [List.flatMap_cons]
    exact (h x (by simp)).append (ih fun y hy => h y (by simp [hy]))

theorem StepsRead.map {α : Type} {cur : Str} (xs : List α) (f : α → List File)
    (g : α → List MsText.Stmt) (h : ∀ x ∈ xs, readStep cur (f x) = some (g x)) :
    StepsRead cur (xs.map f) (xs.flatMap g) := by
  rw [← flatMap_one]
  exact .flatMap xs _ g fun x hx => .one (h x hx)

theorem StepsRead.mapOne {α : Type} {cur : Str} (xs : List α) (f : α → List File)
    (g : α → MsText.Stmt) (h : ∀ x ∈ xs, readStep cur (f x) = some [g x]) :
    StepsRead cur (xs.map f) (xs.map g) := by
  rw [← flatMap_one xs g]
  exact .map xs f _ h

/-- C66: the files for the changes of a table are read back. -/
theorem alterTableSteps_read_back (e : Env) (a : AlterTable) (h : AlterText e a) :
    StepsRead e.cur (alterTableSteps e a) (alterOf e a) := by
  have hname : NameText (alterSchema e a.destTable) a.destTable.tableName :=
    ⟨fun _ => h.schema, h.table⟩
  unfold alterTableSteps alterOf
  refine (StepsRead.append ?_ ?_).append ?_
  · exact .one (readStep_buffer (texts_alter e a h))
  · exact StepsRead.mapOne _ _ _ fun x hx =>
      readStep_one (createIndex_isScript e.cur true x (h.createIndexes x hx).1 (h.createIndexes x hx).2)
  · exact StepsRead.mapOne _ _ _ fun c hc => readStep_one (isScript_one e hname
      (isAct_addConstraint _ _ c (h.addConstraints c hc)) (by simp [alterPrefix, List.append_assoc]))

/-- C66: the files of the foreign keys that are dropped. -/
theorem dropFkeySteps_read_back (e : Env) (gs : List (List Constraint))
    (h : ∀ g ∈ gs, ∀ c ∈ g, NameText c.tableSchema c.tableName ∧ PlainName .sqlserver c.constraintName) :
    StepsRead e.cur (dropFkeySteps e gs) (gs.flatMap fun g => g.map (dropFkeyOf e)) := by
  refine StepsRead.map _ _ _ fun g hg => readStep_buffer ?_
  exact Texts.map _ _ _ fun c hc => isScript_one e (h g hg c hc).1
    (isAct_dropConstraint _ _ _ (h g hg c hc).2) (by simp [dropFkey, List.append_assoc])

/-- C66: the files of the foreign keys that are added. -/
theorem addFkeySteps_read_back (e : Env) (gs : List (List Constraint))
    (h : ∀ g ∈ gs, ∀ c ∈ g, FkeyText e c) :
    StepsRead e.cur (addFkeySteps e gs) (gs.flatMap fun g => g.map (addFkeyOf e)) := by
  refine StepsRead.map _ _ _ fun g hg => readStep_buffer ?_
  exact Texts.map _ _ _ fun c hc => isScript_one e (h g hg c hc).1
    (isAct_addConstraint _ _ _ (h g hg c hc).2) (by simp [addFkey, List.append_assoc])

/-- C66: the files of the schemas that are dropped. -/
theorem dropSchemaSteps_read_back (e : Env) (evs : List Ev)
    (h : ∀ s ∈ evs.filterMap Ev.dropSchema?, DropText s) :
    StepsRead e.cur (dropSchemaSteps e evs) ((evs.filterMap Ev.dropSchema?).flatMap (dropSchemaOf e)) := by
  refine StepsRead.map _ _ _ fun s hs => readStep_buffer ?_
  have h := h s hs
  unfold dropSchemaStmts dropSchemaOf
  refine ((Texts.append ?_ ?_).append ?_).append ?_
  · exact Texts.map _ _ _ fun v hv => drop_isScript e.cur .view b!"DROP VIEW " _ _ (by decide)
      (by decide) (by decide) (fun _ => h.name) (h.views v hv)
  · exact Texts.map _ _ _ fun t ht => drop_isScript e.cur .table b!"DROP TABLE " _ _ (by decide)
      (by decide) (by decide) (fun _ => h.name) (h.tables t ht)
  · refine Texts.map _ _ _ fun r hr => ?_
    unfold dropRoutineWords routineKind
    split
    · exact drop_isScript e.cur .function b!"DROP FUNCTION " _ _ (by decide)
        (by decide) (by decide) (fun _ => h.name) (h.routines r hr)
    · exact drop_isScript e.cur .procedure b!"DROP PROCEDURE " _ _ (by decide)
        (by decide) (by decide) (fun _ => h.name) (h.routines r hr)
  · exact Texts.one (dropSchema_isScript e.cur s.schemaName h.name)

/-- C66: the file of the schemas that are created. -/
theorem createSchemaSteps_read_back (cur : Str) (evs : List Ev)
    (h : ∀ s ∈ evs.filterMap Ev.createSchema?, SchemaText s) :
    StepsRead cur (createSchemaSteps evs)
      ((evs.filterMap Ev.createSchema?).map fun s => .createSchema s s) := by
  unfold createSchemaSteps
  simp only
  split
  · rename_i he
    rw [List.isEmpty_iff] at he
    rw [he]; exact .nil _
  · exact .one (readStep_buffer (Texts.map _ _ _ fun s hs =>
      createSchema_isScript cur s (h s hs).name (h s hs).quotes (h s hs).ident))

/-- C66: the file of the tables. -/
theorem tableSteps_read_back (e : Env) (evs : List Ev)
    (h1 : ∀ t ∈ evs.filterMap Ev.dropTable?, NameText t.tableSchema t.tableName)
    (h2 : ∀ t ∈ evs.filterMap Ev.createTable?, TableText .sqlserver e.cur e.coll t ∧
      ∀ x ∈ t.indexes, x.sql = [] ∧ IndexOk .sqlserver false x) :
    StepsRead e.cur (tableSteps e evs)
      ((evs.filterMap Ev.dropTable?).map (fun t =>
          .drop .table (fullName e.cur t.tableSchema t.tableName)) ++
        (evs.filterMap Ev.createTable?).flatMap (createOf e)) := by
  unfold tableSteps
  simp only
  split
  · rename_i he
    simp only [Bool.and_eq_true, List.isEmpty_iff] at he
    rw [he.1, he.2]; exact .nil _
  · refine .one (readStep_buffer (Texts.append ?_ ?_))
    · exact Texts.map _ _ _ fun t ht => drop_isScript e.cur .table b!"DROP TABLE " _ _ (by decide)
        (by decide) (by decide) (h1 t ht).1 (h1 t ht).2
    · refine Texts.flatMap _ _ _ fun t ht => ?_
      obtain ⟨h3, h4⟩ := h2 t ht
      unfold createTableStmts createOf
      refine Texts.append (ss := [_]) (a := [_]) (Texts.one (isScript_base
        (createTable_reads_back .sqlserver e.cur e.coll true t h3) (Or.inl ⟨_, _, rfl⟩))) ?_
      exact Texts.map _ _ _ fun x hx => createIndex_isScript e.cur false x (h4 x hx).1 (h4 x hx).2

/-- C66: the files of a SQL Server migration, in their order, are read back as the statements of the
migration. -/
theorem sqlSteps_read_back (e : Env) (evs : List Ev) (fk : MssqlFkeys) (h : PlanText e evs fk) :
    StepsRead e.cur (sqlSteps e evs fk) (plan e evs fk) := by
  have h1 := (((((dropFkeySteps_read_back e _ h.dropFkeys).append
    (dropSchemaSteps_read_back e evs h.dropSchemas)).append
    (createSchemaSteps_read_back e.cur evs h.createSchemas)).append
    (tableSteps_read_back e evs h.dropTables h.createTables)).append
    (StepsRead.flatMap (cur := e.cur) _ _ _ fun a ha => alterTableSteps_read_back e a (h.alters a ha))).append
    ((addFkeySteps_read_back e _ h.addFastFkeys).append (addFkeySteps_read_back e _ h.addFkeys))
  unfold sqlSteps plan alterSteps
  simpa only [List.append_assoc] using h1

end Sqddl.Sqlserver
