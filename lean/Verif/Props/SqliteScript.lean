import Verif.Lemmas.SqliteRead
import Verif.Props.RenderStmt
import Verif.Model.SqliteSql

/-!
# The file of a SQLite migration is read back (C66)
-/

namespace Sqddl.Sqlite
open Go SqlSpec CatalogSpec Sqddl.Render Sqddl.Files LiteText
open DdlText hiding Stmt readStmt runScript Stmt.resolve
open Sqddl.Wipe (qualified buffer addStmt)

/-! ## Scripts -/

/-- A text that is these statements. -/
def IsScript (cur s : Str) (sts : List LiteText.Stmt) : Prop :=
  ∃ tss : List (List Tok), Reads .sqlite s (tss.flatMap fun ts => ts ++ [.punct ';']) ∧
    (∀ ts ∈ tss, Tok.punct ';' ∉ ts) ∧
    tss.mapM (fun ts => (LiteText.readStmt (keywords .sqlite) ts).map (LiteText.Stmt.resolve cur)) =
      some sts

theorem mapM_append' {α β : Type} (f : α → Option β) (xs ys : List α) (bs cs : List β)
    (h1 : xs.mapM f = some bs) (h2 : ys.mapM f = some cs) :
    (xs ++ ys).mapM f = some (bs ++ cs) := by
  rw [List.mapM_append, h1, h2]; rfl

theorem IsScript.append {cur s t : Str} {a b : List LiteText.Stmt} (h1 : IsScript cur s a)
    (h2 : IsScript cur t b) : IsScript cur (s ++ t) (a ++ b) := by
  obtain ⟨xs, r1, n1, m1⟩ := h1
  obtain ⟨ys, r2, n2, m2⟩ := h2
  refine ⟨xs ++ ys, by rw [List.flatMap_append]; exact r1.append r2, ?_, mapM_append' _ _ _ _ _ m1 m2⟩
  intro ts hts
  rcases List.mem_append.1 hts with h | h
  · exact n1 ts h
  · exact n2 ts h

theorem IsScript.run {cur s : Str} {sts : List LiteText.Stmt} (h : IsScript cur s sts) :
    LiteText.runScript (keywords .sqlite) cur s = some sts := by
  obtain ⟨tss, r, n, m⟩ := h
  unfold LiteText.runScript
  rw [lex_of_readsP r.readsP, Option.bind_some, statements_flatMap tss n, m]

/-- Texts that are these statements. -/
inductive Texts (cur : Str) : List Str → List LiteText.Stmt → Prop
  | nil : Texts cur [] []
  | cons {s : Str} {ss : List Str} {a b : List LiteText.Stmt} : s ≠ [] → IsScript cur s a →
      Texts cur ss b → Texts cur (s :: ss) (a ++ b)

theorem Texts.append {cur : Str} {ss ss' : List Str} {a b : List LiteText.Stmt} (h1 : Texts cur ss a)
    (h2 : Texts cur ss' b) : Texts cur (ss ++ ss') (a ++ b) := by
  induction h1 with
  | nil => exact h2
  | cons h0 h _ ih => rw [List.append_assoc]; exact .cons h0 h ih

theorem Texts.one {cur s : Str} {a : List LiteText.Stmt} (h0 : s ≠ []) (h : IsScript cur s a) :
    Texts cur [s] a := by
  have := Texts.cons h0 h Texts.nil
  simpa using this

theorem Texts.flatMap {α : Type} {cur : Str} (xs : List α) (f : α → List Str)
    (g : α → List LiteText.Stmt) (h : ∀ x ∈ xs, Texts cur (f x) (g x)) :
    Texts cur (xs.flatMap f) (xs.flatMap g) := by
  induction xs with
  | nil => exact .nil
  | cons x xs ih =>
    simp only [List.flatMap_cons]
    exact (h x (by simp)).append (ih fun y hy => h y (by simp [hy]))

theorem Texts.map {α : Type} {cur : Str} (xs : List α) (f : α → Str) (g : α → List LiteText.Stmt)
    (h : ∀ x ∈ xs, f x ≠ [] ∧ IsScript cur (f x) (g x)) : Texts cur (xs.map f) (xs.flatMap g) := by
  induction xs with
  | nil => exact .nil
  | cons x xs ih =>
    simp only [List.map_cons, List.flatMap_cons]
    exact .cons (h x (by simp)).1 (h x (by simp)).2 (ih fun y hy => h y (by simp [hy]))

theorem Texts.map1 {α : Type} {cur : Str} (xs : List α) (f : α → Str) (g : α → LiteText.Stmt)
    (h : ∀ x ∈ xs, f x ≠ [] ∧ IsScript cur (f x) [g x]) : Texts cur (xs.map f) (xs.map g) := by
  induction xs with
  | nil => exact .nil
  | cons x xs ih =>
    simp only [List.map_cons]
    exact .cons (a := [g x]) (h x (by simp)).1 (h x (by simp)).2 (ih fun y hy => h y (by simp [hy]))

/-- A buffer of statements is read as the statements. -/
theorem Texts.script {cur : Str} {ss : List Str} {sts : List LiteText.Stmt} (h : Texts cur ss sts) :
    IsScript cur (buffer ss) sts := by
  have e : ∀ ss : List Str, ∀ s : Str, s ≠ [] →
      buffer (s :: ss) = s ++ ss.flatMap fun q => b!"\n" ++ q := by
    intro ss s hs
    simp only [buffer, List.foldl_cons]
    have : addStmt [] s = s := by simp [addStmt]
    rw [this, Wipe.buffer_fold _ _ hs]
  have tail : ∀ {ss : List Str} {b : List LiteText.Stmt}, Texts cur ss b →
      IsScript cur (ss.flatMap fun q => b!"\n" ++ q) b := by
    intro ss b h
    induction h with
    | nil => exact ⟨[], Reads.nil _, by simp, rfl⟩
    | cons h0 h _ ih =>
      simp only [List.flatMap_cons]
      refine IsScript.append ?_ ih
      obtain ⟨tss, r, n, m⟩ := h
      refine ⟨tss, ?_, n, m⟩
      have := (reads_lit .sqlite b!"\n" (by decide) (by decide)).append r
      have e : stoks b!"\n" = [] := by decide
      rw [e] at this
      exact this
  cases h with
  | nil => exact ⟨[], Reads.nil _, by simp, rfl⟩
  | cons h0 h ht =>
    rw [e _ _ h0]
    exact h.append (tail ht)

/-- A text that is written before a semicolon. -/
theorem isScript_of {cur s : Str} {ts : List Tok} {st : LiteText.Stmt} (e : Str)
    (h : ReadsP .sqlite s ts) (hs : bal 0 ts) (he : IsGap e [.punct ';'])
    (hr : (LiteText.readStmt (keywords .sqlite) ts).map (LiteText.Stmt.resolve cur) = some st) :
    s ++ e ≠ [] ∧ IsScript cur (s ++ e) [st] := by
  refine ⟨?_, [ts], ?_, ?_, ?_⟩
  · have := he.1.2.2.1
    simp [this]
  · simpa using h.lit he
  · simpa using flat_no_semi 0 ts hs
  · simp [hr]

theorem isScript_base {s : Str} {st : DdlText.Stmt} {x : LiteText.Stmt}
    (h : IsStmt .sqlite [] s st)
    (hx : ∀ raw : DdlText.Stmt, raw.resolve .sqlite [] = st →
      ∃ y, ofBase raw = some y ∧ y.resolve [] = x) : s ≠ [] ∧ IsScript [] s [x] := by
  obtain ⟨h0, ts, h1, h2, h3⟩ := h
  refine ⟨h0, [ts], by simpa using h1, by simpa using h2, ?_⟩
  obtain ⟨raw, h4, h5⟩ := Option.map_eq_some_iff.1 h3
  obtain ⟨y, h6, h7⟩ := hx raw h5
  simp [readStmt_base h4 h6, h7]

/-- CREATE TABLE. -/
theorem isScript_table {s : Str} {n : Name} {xs : List Item}
    (h : IsStmt .sqlite [] s (.createTable n xs)) : s ≠ [] ∧ IsScript [] s [.createTable n xs] := by
  refine isScript_base h fun raw hr => ?_
  cases raw <;> simp only [DdlText.Stmt.resolve, reduceCtorEq] at hr
  refine ⟨_, rfl, ?_⟩
  simpa only [LiteText.Stmt.resolve, LiteText.Stmt.createTable.injEq, DdlText.Stmt.createTable.injEq] using hr

/-- CREATE INDEX. -/
theorem isScript_index {s : Str} {x : Idx}
    (h : IsStmt .sqlite [] s (.createIndex x)) : s ≠ [] ∧ IsScript [] s [.createIndex x] := by
  refine isScript_base h fun raw hr => ?_
  cases raw <;> simp only [DdlText.Stmt.resolve, reduceCtorEq] at hr
  refine ⟨_, rfl, ?_⟩
  simpa only [LiteText.Stmt.resolve, LiteText.Stmt.createIndex.injEq, DdlText.Stmt.createIndex.injEq] using hr

/-! ## The statements that the changes stand for -/

/-- A table of the only schema. -/
def nm (n : Str) : Name := (some [], n)

/-- The items of CREATE TABLE. -/
def itemsOf (t : Table) : List Item :=
  (liveColumns t).map (fun c => .col (colOf .sqlite [] false c)) ++
    (tableConstraints .sqlite true t).map fun c => .con (conOf .sqlite [] c)

/-- CREATE INDEX. -/
def indexOf (x : Index) : LiteText.Stmt := .createIndex ((idxOf .sqlite [] false false x).resolve [])

/-- A new table. -/
def createOf (t : Table) : List LiteText.Stmt :=
  .createTable (nm t.tableName) (itemsOf t) :: t.indexes.map indexOf

/-- A table that is rebuilt. -/
def rebuildOf (src dest : Table) : List LiteText.Stmt :=
  [.createTable (nm (dest.tableName ++ b!"_new")) (itemsOf dest),
   .copyRows (nm (dest.tableName ++ b!"_new")) (insertColumns src dest) (insertColumns src dest)
     (nm dest.tableName),
   .dropTable (nm dest.tableName),
   .renameTable (nm (dest.tableName ++ b!"_new")) dest.tableName] ++
  dest.indexes.map indexOf

/-- A table that is changed in place. -/
def inPlaceOf (a : AlterTable) : List LiteText.Stmt :=
  a.dropIndexes.map (fun x => .dropIndex (nm x.indexName)) ++
  a.dropColumns.map (fun c => .dropColumn (nm a.destTable.tableName) c.columnName) ++
  a.addColumns.map (fun c => .addColumn (nm a.destTable.tableName) (colOf .sqlite [] true c)) ++
  a.createIndexes.map indexOf

/-- The changes of a table. -/
def changeOf (a : AlterTable) : List LiteText.Stmt :=
  if copies a = some true then rebuildOf a.srcTable a.destTable else inPlaceOf a

/-- The pragma around a migration that rebuilds a table. -/
def pragmaOf (copy : Bool) (v : Str) : List LiteText.Stmt :=
  if copy then [.pragma b!"legacy_alter_table" v] else []

/-- All statements. -/
def planOf (copy : Bool) (evs : List Ev) : List LiteText.Stmt :=
  pragmaOf copy b!"on" ++
  (evs.filterMap Ev.dropTable?).map (fun t => .dropTable (nm t.tableName)) ++
  (evs.filterMap Ev.createTable?).flatMap createOf ++
  (evs.filterMap Ev.alter?).flatMap changeOf ++
  pragmaOf copy b!"off"

/-! ## Texts -/

theorem full_none (n : Str) : full [] (none, n) = nm n := rfl

/-- A statement that ends with a semicolon. -/
theorem isScript_plain {s : Str} {ts : List Tok} {raw st : LiteText.Stmt} (e : Str)
    (h : ReadsP .sqlite s ts) (hs : bal 0 ts) (he : IsGap e [.punct ';'])
    (hr : LiteText.readStmt (keywords .sqlite) ts = some raw) (hx : raw.resolve [] = st) :
    s ++ e ≠ [] ∧ IsScript [] (s ++ e) [st] :=
  isScript_of e h hs he (by rw [hr, Option.map_some, hx])

theorem isScript_pragma (on : Bool) :
    pragma on ≠ [] ∧ IsScript [] (pragma on)
      [.pragma b!"legacy_alter_table" (if on then b!"on" else b!"off")] := by
  cases on
  · exact isScript_plain (s := b!"PRAGMA legacy_alter_table = OFF") b!";\n"
      (readsP_lit .sqlite _ (by decide)) (by decide) gap_semi (readStmt_pragma _) rfl
  · exact isScript_plain (s := b!"PRAGMA legacy_alter_table = ON") b!";\n"
      (readsP_lit .sqlite _ (by decide)) (by decide) gap_semi (readStmt_pragma _) rfl

theorem isScript_dropTable (n : Str) (h : PlainName .sqlite n) :
    dropTable n ≠ [] ∧ IsScript [] (dropTable n) [.dropTable (nm n)] := by
  have p := (reads_lit .sqlite b!"DROP TABLE " (by decide) (by decide)).append_p
    (readsP_ident .sqlite n)
  exact isScript_plain b!";\n" p (bal_append0 _ _ (by decide) (flat_bal _ _ (flat_ident .sqlite n)))
    gap_semi (readStmt_dropTable n h) rfl

theorem isScript_dropIndex (n : Str) (h : PlainName .sqlite n) :
    b!"DROP INDEX " ++ quoteIdentifier .sqlite n ++ b!";\n" ≠ [] ∧
    IsScript [] (b!"DROP INDEX " ++ quoteIdentifier .sqlite n ++ b!";\n") [.dropIndex (nm n)] := by
  have p := (reads_lit .sqlite b!"DROP INDEX " (by decide) (by decide)).append_p
    (readsP_ident .sqlite n)
  exact isScript_plain b!";\n" p (bal_append0 _ _ (by decide) (flat_bal _ _ (flat_ident .sqlite n)))
    gap_semi (readStmt_dropIndex n h) rfl

theorem readsP_alter (n : Str) (s : Str) (ts us : List Tok) (hs : IsGap s us) (t : Str)
    (ht : ReadsP .sqlite t ts) :
    ReadsP .sqlite (b!"ALTER TABLE " ++ (quoteIdentifier .sqlite n ++ (s ++ t)))
      (.word b!"ALTER" :: .word b!"TABLE" :: identTok .sqlite n :: (us ++ ts)) := by
  have p := (reads_lit .sqlite b!"ALTER TABLE " (by decide) (by decide)).append_p
    ((readsP_ident .sqlite n).piece (Piece.lit_then .sqlite s us t ts hs ht))
  exact p

theorem isScript_dropColumn (n c : Str) (h : PlainName .sqlite n) (hc : PlainName .sqlite c) :
    b!"ALTER TABLE " ++ quoteIdentifier .sqlite n ++ b!" DROP COLUMN " ++
      quoteIdentifier .sqlite c ++ b!";\n" ≠ [] ∧
    IsScript [] (b!"ALTER TABLE " ++ quoteIdentifier .sqlite n ++ b!" DROP COLUMN " ++
      quoteIdentifier .sqlite c ++ b!";\n") [.dropColumn (nm n) c] := by
  have p := readsP_alter n b!" DROP COLUMN " _ [.word b!"DROP", .word b!"COLUMN"] (by decide) _
    (readsP_ident .sqlite c)
  have := isScript_plain (st := .dropColumn (nm n) c) b!";\n" p (by
    refine bal_append0 [_, _] _ (by decide) (bal_append0 [_] _ (flat_bal _ _ (flat_ident .sqlite n)) ?_)
    exact bal_append0 [_, _] _ (by decide) (flat_bal _ _ (flat_ident .sqlite c)))
    gap_semi (readStmt_dropColumn n c h hc) rfl
  simpa only [List.append_assoc] using this

theorem isScript_rename (n : Str) (h : PlainName .sqlite n)
    (h' : PlainName .sqlite (n ++ b!"_new")) :
    rename n ≠ [] ∧ IsScript [] (rename n) [.renameTable (nm (n ++ b!"_new")) n] := by
  have p := readsP_alter (n ++ b!"_new") b!" RENAME TO " _ [.word b!"RENAME", .word b!"TO"]
    (by decide) _ (readsP_ident .sqlite n)
  have := isScript_plain (st := .renameTable (nm (n ++ b!"_new")) n) b!";\n" p (by
    refine bal_append0 [_, _] _ (by decide) (bal_append0 [_] _
      (flat_bal _ _ (flat_ident .sqlite (n ++ b!"_new"))) ?_)
    exact bal_append0 [_, _] _ (by decide) (flat_bal _ _ (flat_ident .sqlite n)))
    gap_semi (readStmt_rename _ n h' h) rfl
  simpa only [List.append_assoc, rename] using this

theorem isScript_addColumn (n : Str) (c : Column) (h : PlainName .sqlite n)
    (hc : ColumnOk .sqlite [] true c) :
    b!"ALTER TABLE " ++ quoteIdentifier .sqlite n ++ b!" ADD COLUMN " ++
      columnDef .sqlite [] c true ++ b!";\n" ≠ [] ∧
    IsScript [] (b!"ALTER TABLE " ++ quoteIdentifier .sqlite n ++ b!" ADD COLUMN " ++
      columnDef .sqlite [] c true ++ b!";\n") [.addColumn (nm n) (colOf .sqlite [] true c)] := by
  obtain ⟨ty, p, ho⟩ := piece_columnBody .sqlite [] true c hc
  have p1 := readsP_alter n b!" ADD COLUMN " _ [.word b!"ADD", .word b!"COLUMN"] (by decide) _
    ((readsP_ident .sqlite c.columnName).piece p)
  have := isScript_plain (st := .addColumn (nm n) (colOf .sqlite [] true c)) b!";\n" p1 (by
    refine bal_append0 [_, _] _ (by decide) (bal_append0 [_] _ (flat_bal _ _ (flat_ident .sqlite n)) ?_)
    exact bal_append0 [_, _] _ (by decide) (flat_bal _ _ (flat_col .sqlite _ ty ho)))
    gap_semi (readStmt_addColumn n h _ ty ho) rfl
  simpa only [List.append_assoc, columnDef] using this

theorem isScript_createIndex (x : Index) (h0 : x.sql = []) (h : IndexOk .sqlite false x) :
    createIndex .sqlite [] x false ≠ [] ∧
    IsScript [] (createIndex .sqlite [] x false) [indexOf x] :=
  isScript_index (createIndex_reads_back .sqlite [] false x h0 h)

theorem isScript_createTable (t : Table) (hs : t.tableSchema = []) (h : TableText .sqlite [] [] t) :
    createTable .sqlite [] [] t true ≠ [] ∧
    IsScript [] (createTable .sqlite [] [] t true) [.createTable (nm t.tableName) (itemsOf t)] := by
  have := isScript_table (createTable_reads_back .sqlite [] [] true t h)
  simpa [hs, fullName, nm, itemsOf] using this

theorem bal_brackets (a r : List Tok) (h : bal 0 a) :
    bal 0 (.punct '(' :: (a ++ .punct ')' :: r)) = bal 0 r := by
  simp only [bal, deeper]
  have := bal_append 1 0 a (.punct ')' :: r) h
  simp at this ⊢
  rw [this]
  simp [bal, deeper]

theorem isScript_insert (src dest : Table) (hn : PlainName .sqlite dest.tableName)
    (hn' : PlainName .sqlite (dest.tableName ++ b!"_new")) (h0 : insertColumns src dest ≠ [])
    (h : ∀ c ∈ insertColumns src dest, PlainName .sqlite c) :
    insertSelect src dest ≠ [] ∧ IsScript [] (insertSelect src dest)
      [.copyRows (nm (dest.tableName ++ b!"_new")) (insertColumns src dest) (insertColumns src dest)
        (nm dest.tableName)] := by
  unfold insertSelect
  generalize insertColumns src dest = cols at *
  generalize dest.tableName ++ b!"_new" = m at *
  generalize dest.tableName = n at *
  have p := (reads_lit .sqlite b!"INSERT INTO " (by decide) (by decide)).append_p
    ((readsP_ident .sqlite m).piece (Piece.lit_then .sqlite b!"\n    (" [.punct '('] _ _ (by decide)
      ((readsP_colNames .sqlite cols).piece (Piece.lit_then .sqlite b!")\nSELECT\n    "
        [.punct ')', .word b!"SELECT"] _ _ (by decide)
        ((readsP_colNames .sqlite cols).piece (Piece.lit_then .sqlite b!"\nFROM\n    "
          [.word b!"FROM"] _ _ (by decide) (readsP_ident .sqlite n)))))))
  have hb : bal 0 (colToks .sqlite cols) := bal_colToks .sqlite cols
  have := isScript_plain (st := .copyRows (nm m) cols cols (nm n)) b!"\n;\n" p (by
    refine bal_append0 _ _ (by decide) (bal_append0 [_] _ (flat_bal _ _ (flat_ident .sqlite m)) ?_)
    have e : [Tok.punct '('] ++ (colToks .sqlite cols ++ ([Tok.punct ')', .word b!"SELECT"] ++
        (colToks .sqlite cols ++ ([Tok.word b!"FROM"] ++ [identTok .sqlite n])))) =
        (.punct '(' :: (colToks .sqlite cols ++ .punct ')' :: ([Tok.word b!"SELECT"] ++
          (colToks .sqlite cols ++ ([Tok.word b!"FROM"] ++ [identTok .sqlite n]))))) := by simp
    rw [e, bal_brackets _ _ hb]
    refine bal_append0 [_] _ (by decide) (bal_append0 _ _ hb ?_)
    exact bal_append0 [_] _ (by decide) (flat_bal _ _ (flat_ident .sqlite n))) (by decide) (readStmt_insert m n cols hn' hn h0 h) rfl
  simpa only [List.append_assoc, columnNames] using this

/-- The changes of a table can be expressed. -/
structure ChangeText (a : AlterTable) : Prop where
  dest : Writable a.destTable
  src : Readable a.srcTable
  common : ∃ n, Copied a.srcTable a.destTable n
  dropIndexes : ∀ x ∈ a.dropIndexes, x ∈ a.srcTable.indexes
  dropColumns : ∀ c ∈ a.dropColumns, c ∈ a.srcTable.columns
  addColumns : ∀ c ∈ a.addColumns, c ∈ liveColumns a.destTable
  createIndexes : ∀ x ∈ a.createIndexes, x ∈ a.destTable.indexes

theorem mem_insertColumns (src dest : Table) (n : Str) :
    n ∈ insertColumns src dest ↔ Copied src dest n := by
  unfold insertColumns Copied
  simp only [List.mem_filter, List.mem_map, List.any_filter, List.any_eq_true, Bool.and_eq_true,
    Bool.not_eq_true', Bool.or_eq_false_iff, decide_eq_false_iff_not, ne_eq, Decidable.not_not,
    beq_iff_eq]
  grind

theorem tableNew_text {t : Table} (h : Writable t) : TableText .sqlite [] [] (tableNew t) := by
  have hs : t.sql = [] := h.table.sql
  have e : tableNew t = { t with tableName := t.tableName ++ b!"_new" } := by
    unfold tableNew
    rw [hs]
    rfl
  rw [e]
  exact ⟨h.table.dialect, h.table.sql, h.table.schema, h.renamed, h.table.some, h.table.columns,
    h.table.generated, h.table.exclude, h.table.constraints, h.table.onePrimary⟩

theorem plain_of_new {n : Str} (h : PlainName .sqlite (n ++ b!"_new")) : PlainName .sqlite n := by
  refine ⟨?_, by simp⟩
  rintro ⟨a, c, b, rfl⟩
  exact h.1 ⟨a, c, b ++ b!"_new", by simp⟩

theorem texts_create (t : Table) (h : Writable t) : Texts [] (createTableStmts t) (createOf t) := by
  have h1 := isScript_createTable t h.schema h.table
  refine Texts.cons (a := [_]) h1.1 h1.2 ?_
  exact Texts.map1 (cur := []) t.indexes (fun x => createIndex .sqlite [] x false)
    indexOf fun x hx => isScript_createIndex x (h.indexes x hx).1 (h.indexes x hx).2

theorem texts_rebuild (a : AlterTable) (h : ChangeText a) :
    Texts [] (copyTable a.srcTable a.destTable) (rebuildOf a.srcTable a.destTable) := by
  have hw := h.dest
  have hn := plain_of_new hw.renamed
  have h1 := isScript_createTable (tableNew a.destTable) hw.schema (tableNew_text hw)
  have h2 := isScript_insert a.srcTable a.destTable hn hw.renamed (by
    obtain ⟨n, hc⟩ := h.common
    have := (mem_insertColumns _ _ n).2 hc
    intro e; rw [e] at this; cases this) (by
    intro n hc
    obtain ⟨⟨c, hc', rfl⟩, -⟩ := (mem_insertColumns _ _ n).1 hc
    exact h.src.columns c hc')
  have h3 := isScript_dropTable a.destTable.tableName hn
  have h4 := isScript_rename a.destTable.tableName hn hw.renamed
  unfold copyTable rebuildOf
  refine Texts.cons ?_ (((h1.2.append h2.2).append h3.2).append h4.2) ?_
  · simp [h4.1]
  · have h0 : triggerTexts a.srcTable a.destTable = [] := by
      simp [triggerTexts, hw.triggers, h.src.triggers]
    rw [h0, List.append_nil]
    exact Texts.map1 (cur := []) a.destTable.indexes (fun x => createIndex .sqlite [] x false)
      indexOf fun x hx =>
        isScript_createIndex x (hw.indexes x hx).1 (hw.indexes x hx).2

theorem texts_inPlace (a : AlterTable) (h : ChangeText a) :
    Texts [] (alterStmts a) (inPlaceOf a) := by
  have hw := h.dest
  have hn := plain_of_new hw.renamed
  unfold alterStmts inPlaceOf
  refine Texts.append (Texts.append (Texts.append ?_ ?_) ?_) ?_
  · exact Texts.map1 (cur := []) a.dropIndexes _ (fun x => .dropIndex (nm x.indexName)) fun x hx =>
      isScript_dropIndex x.indexName (h.src.indexes x (h.dropIndexes x hx))
  · exact Texts.map1 (cur := []) a.dropColumns _
      (fun c => .dropColumn (nm a.destTable.tableName) c.columnName) fun c hc =>
      isScript_dropColumn a.destTable.tableName c.columnName hn
        (h.src.columns c (h.dropColumns c hc))
  · exact Texts.map1 (cur := []) a.addColumns _
      (fun c => .addColumn (nm a.destTable.tableName) (colOf .sqlite [] true c)) fun c hc =>
      isScript_addColumn a.destTable.tableName c hn (hw.columns c (h.addColumns c hc))
  · exact Texts.map1 (cur := []) a.createIndexes _ indexOf fun x hx =>
      isScript_createIndex x (hw.indexes x (h.createIndexes x hx)).1
        (hw.indexes x (h.createIndexes x hx)).2

theorem texts_change (a : AlterTable) (h : ChangeText a) :
    Texts [] (alterText a) (changeOf a) := by
  unfold alterText changeOf
  split
  · exact texts_rebuild a h
  · exact texts_inPlace a h

theorem texts_pragma (copy on : Bool) (v : Str) (hv : v = if on then b!"on" else b!"off") :
    Texts [] (if copy then [pragma on] else []) (pragmaOf copy v) := by
  subst hv
  cases copy
  · exact .nil
  · exact Texts.one (isScript_pragma on).1 (isScript_pragma on).2

/-- C66: the file of a SQLite migration is read back as the changes: a table that has a changed
column, or a constraint that comes or goes, is rebuilt. -/
theorem sqlite_reads_back (evs : List Ev) (copy : Bool)
    (h0 : hasCopy (evs.filterMap Ev.alter?) = some copy)
    (hd : ∀ t ∈ evs.filterMap Ev.dropTable?, PlainName .sqlite t.tableName)
    (hc : ∀ t ∈ evs.filterMap Ev.createTable?, Writable t)
    (ha : ∀ a ∈ evs.filterMap Ev.alter?, ChangeText a) :
    ∃ s, sqlText evs = some s ∧
      LiteText.runScript (keywords .sqlite) [] s = some (planOf copy evs) := by
  refine ⟨_, by rw [sqlText, h0, Option.map_some], IsScript.run (Texts.script ?_)⟩
  unfold sqlStmts planOf
  refine Texts.append (Texts.append (Texts.append (Texts.append ?_ ?_) ?_) ?_) ?_
  · exact texts_pragma copy true _ rfl
  · exact Texts.map1 (cur := []) (evs.filterMap Ev.dropTable?) (fun t => dropTable t.tableName)
      (fun t => .dropTable (nm t.tableName)) fun t ht => isScript_dropTable t.tableName (hd t ht)
  · exact Texts.flatMap _ _ _ fun t ht => texts_create t (hc t ht)
  · exact Texts.flatMap _ _ _ fun a h => texts_change a (ha a h)
  · exact texts_pragma copy false _ rfl

end Sqddl.Sqlite
