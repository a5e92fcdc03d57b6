import Verif.Props.RenderStmt
import Verif.Spec.DdlAlter
import Verif.Model.MysqlSql

/-!
# ALTER TABLE statements of MySQL migrations are read back (C66)
-/

namespace Sqddl.Render
open Go SqlSpec DdlText CatalogSpec
open Sqddl.Wipe (qualified buffer addStmt)

/-- A text that is one part of ALTER TABLE. -/
def IsPart (d : Dialect) (cur owner s : Str) (act : Action) : Prop :=
  ∃ ts raw, ReadsP d s ts ∧ flat 0 ts ∧ readAction d (keywords d) ts = some raw ∧
    raw.resolve d cur owner = act ∧ ts.head? ≠ some (.punct '.') ∧ ts ≠ []

theorem action_owner (d : Dialect) (cur s n : Str) (a : Action) :
    a.resolve d cur ((tableName cur s n).1.getD cur) = a.resolve d cur s := by
  cases a <;> simp [Action.resolve, con_owner]

/-- A part that drops something by its name. -/
theorem isPart_drop (d : Dialect) (cur owner n : Str) (s : Str) (w : Str) (act : Action)
    (hs : s.all plainTextChar) (hl : s.getLast?.any wordChar = false)
    (hw : stoks s = [.word b!"DROP", .word w])
    (hr : readAction d (keywords d) [.word b!"DROP", .word w, identTok d n] = some act)
    (ha : act.resolve d cur owner = act) : IsPart d cur owner (s ++ quoteIdentifier d n) act := by
  have p := (reads_lit d s hs hl).append_p (readsP_ident d n)
  rw [hw] at p
  refine ⟨_, _, p, ?_, hr, ha, by simp, by simp⟩
  exact flat_append0 [.word b!"DROP", .word w] _ (by rfl) (flat_ident d n)

theorem isPart_dropConstraint (d : Dialect) (cur owner n : Str) (h : PlainName d n) :
    IsPart d cur owner (b!"DROP CONSTRAINT " ++ quoteIdentifier d n) (.dropConstraint n) :=
  isPart_drop d cur owner n _ b!"CONSTRAINT" _ (by decide) (by decide) (by decide)
    (readAction_dropConstraint d n h) rfl

theorem isPart_dropIndex (d : Dialect) (cur owner n : Str) (h : PlainName d n) :
    IsPart d cur owner (b!"DROP INDEX " ++ quoteIdentifier d n) (.dropIndex n) :=
  isPart_drop d cur owner n _ b!"INDEX" _ (by decide) (by decide) (by decide)
    (readAction_dropIndex d n h) rfl

theorem isPart_dropColumn (d : Dialect) (cur owner n : Str) (h : PlainName d n) :
    IsPart d cur owner (b!"DROP COLUMN " ++ quoteIdentifier d n) (.dropColumn n) :=
  isPart_drop d cur owner n _ b!"COLUMN" _ (by decide) (by decide) (by decide)
    (readAction_dropColumn d n h) rfl

theorem isPart_addColumn (d : Dialect) (cur owner coll : Str) (c : Column)
    (h : ColumnOk d coll false c) :
    IsPart d cur owner (b!"ADD COLUMN " ++ columnDef d coll c false)
      (.addColumn (colOf d coll false c)) := by
  obtain ⟨ty, p, ho⟩ := piece_columnBody d coll false c h
  have p1 := (reads_lit d b!"ADD COLUMN " (by decide) (by decide)).append_p
    ((readsP_ident d c.columnName).piece p)
  have e : stoks b!"ADD COLUMN " = [.word b!"ADD", .word b!"COLUMN"] := by decide
  rw [e] at p1
  refine ⟨_, _, p1, flat_append0 _ _ (by rfl) (flat_col d _ ty ho),
    readAction_addColumn d _ ty ho, rfl, by simp, by simp⟩

theorem isPart_modifyColumn (d : Dialect) (cur owner coll : Str) (c : Column)
    (h : ColumnOk d coll false c) :
    IsPart d cur owner (b!"MODIFY COLUMN " ++ columnDef d coll c false)
      (.modifyColumn (colOf d coll false c)) := by
  obtain ⟨ty, p, ho⟩ := piece_columnBody d coll false c h
  have p1 := (reads_lit d b!"MODIFY COLUMN " (by decide) (by decide)).append_p
    ((readsP_ident d c.columnName).piece p)
  have e : stoks b!"MODIFY COLUMN " = [.word b!"MODIFY", .word b!"COLUMN"] := by decide
  rw [e] at p1
  refine ⟨_, _, p1, flat_append0 _ _ (by rfl) (flat_col d _ ty ho),
    readAction_modifyColumn d _ ty ho, rfl, by simp, by simp⟩

theorem isPart_addIndex (cur owner : Str) (x : Index) (h : IndexOk .mysql true x) :
    IsPart .mysql cur owner (b!"ADD " ++ indexDef .mysql cur x false true)
      (.addIndex (idxOf .mysql cur false true x)) := by
  obtain ⟨p, ok⟩ := readsP_indexDef .mysql cur false true x h
  have p1 := (reads_lit .mysql b!"ADD " (by decide) (by decide)).append_p p
  have e : stoks b!"ADD " = [.word b!"ADD"] := by decide
  have e2 : wherePart .mysql x = false := by simp [wherePart]
  rw [e, e2] at p1
  rw [e2] at ok
  have hr := readAction_addIndex .mysql _ false ok rfl
  rw [fold_writtenIdx] at hr
  exact ⟨_, _, p1, flat_append0 _ _ (by rfl) (flat_idx .mysql _ ok), hr, rfl, by simp, by simp⟩

theorem isPart_addConstraint (d : Dialect) (cur : Str) (c : Constraint) (h : ConstraintOk d cur c) :
    IsPart d cur c.tableSchema (b!"ADD " ++ constraintDef d cur c) (.addConstraint (conOf d cur c)) := by
  obtain ⟨p, ok⟩ := readsP_constraintDef d cur c h
  have p1 := (reads_lit d b!"ADD " (by decide) (by decide)).append_p p
  have e : stoks b!"ADD " = [.word b!"ADD"] := by decide
  rw [e] at p1
  exact ⟨_, _, p1, flat_append0 _ _ (by rfl) (flat_con d _ ok), readAction_addConstraint d _ ok,
    congrArg Action.addConstraint (resolve_writtenCon d cur c h), by simp, by simp⟩

theorem joinParts_eq (xs : List Str) : Mysql.joinParts xs = tableItems xs [] := by
  cases xs <;> simp [Mysql.joinParts, tableItems]

/-- ALTER TABLE with parts. -/
theorem isStmt_alterTable (d : Dialect) (cur s n : Str) (hs : s ≠ [] → PlainName d s)
    (hn : PlainName d n) (ps : List (Str × Action)) (h0 : ps ≠ [])
    (h : ∀ p ∈ ps, IsPart d cur s p.1 p.2) (text : Str) (e : Str) (he : IsGap e [.punct ';'])
    (ht : ∀ qs : List (Str × List Tok), qs.map (·.1) = ps.map (·.1) →
      (∀ q ∈ qs, ReadsP d q.1 q.2) → Piece d text (commaSep (qs.map (·.2)))) :
    IsStmt d cur (b!"ALTER TABLE " ++ qualified d cur s n ++ text ++ e)
      (.alterTable (fullName cur s n) (ps.map (·.2))) := by
  have key : ∃ qs : List (Str × List Tok × Action), qs.map (·.1) = ps.map (·.1) ∧
      qs.map (fun q => q.2.2.resolve d cur s) = ps.map (·.2) ∧
      ∀ q ∈ qs, ReadsP d q.1 q.2.1 ∧ flat 0 q.2.1 ∧
        readAction d (keywords d) q.2.1 = some q.2.2 ∧
        q.2.1.head? ≠ some (.punct '.') ∧ q.2.1 ≠ [] := by
    clear h0 ht
    induction ps with
    | nil => exact ⟨[], rfl, rfl, by simp⟩
    | cons p r ih =>
      obtain ⟨qs, e1, e2, e3⟩ := ih fun q hq => h q (by simp [hq])
      obtain ⟨ts, raw, h1, h2, h3, h4, h5, h6⟩ := h p (by simp)
      refine ⟨(p.1, ts, raw) :: qs, by simp [e1], by simp [e2, h4], ?_⟩
      intro q hq
      simp only [List.mem_cons] at hq
      rcases hq with rfl | hq
      · exact ⟨h1, h2, h3, h5, h6⟩
      · exact e3 q hq
  obtain ⟨qs, e1, e2, e3⟩ := key
  have pi := ht (qs.map fun q => (q.1, q.2.1)) (by rw [← e1]; simp) (by
    intro q hq; simp only [List.mem_map] at hq; obtain ⟨x, hx, rfl⟩ := hq; exact (e3 x hx).1)
  have p2 := (reads_lit d b!"ALTER TABLE " (by decide) (by decide)).append_p
    ((readsP_qualified d cur s n).piece pi)
  have e4 : stoks b!"ALTER TABLE " = [.word b!"ALTER", .word b!"TABLE"] := by decide
  have e5 : (qs.map fun q => (q.1, q.2.1)).map (·.2) = (qs.map (·.2)).map (·.1) := by simp
  rw [e4, e5] at p2
  simp only [← List.append_assoc] at p2
  refine isStmt_of e p2 ?_ he ?_
  · rw [List.append_assoc]
    apply bal_append0 _ _ (by rfl)
    apply bal_append0 _ _ (flat_bal _ _ (flat_qname d _))
    apply bal_commaSep
    intro y hy
    simp only [List.mem_map] at hy
    obtain ⟨x, ⟨z, hz, rfl⟩, rfl⟩ := hy
    exact (e3 z hz).2.1
  · have hst := readStmt_alterTable d (tableName cur s n) (tableName_plain d cur _ _ hs) hn
      (qs.map (·.2)) (by
        intro hc
        have : qs = [] := by simpa using hc
        subst this; simp at e1; exact h0 e1)
      (by intro x hx; simp only [List.mem_map] at hx; obtain ⟨q, hq, rfl⟩ := hx
          exact ⟨(e3 q hq).2.1, (e3 q hq).2.2.1⟩)
      (by intro x hx; simp only [List.mem_map] at hx; obtain ⟨q, hq, rfl⟩ := hx
          exact (e3 q hq).2.2.2)
    simp only [List.cons_append, List.nil_append]
    rw [hst]
    simp only [Option.map_some, Stmt.resolve, full_tableName, Option.some.injEq,
      Stmt.alterTable.injEq, true_and]
    rw [List.map_map, List.map_map, ← e2]
    apply List.map_congr_left
    intro q _
    exact action_owner d cur s n q.2.2

/-- C66: the ALTER TABLE of a MySQL migration is read back as the changes of the table. -/
theorem mysql_alterTable_reads_back (cur coll : Str) (a : AlterTable)
    (h : AlterText .mysql cur coll a) :
    IsStmt .mysql cur (Mysql.alterTable cur coll a) (alterTableOf .mysql cur coll a) := by
  have key : ∃ ps : List (Str × Action), ps.map (·.1) = Mysql.alterParts cur coll a ∧
      ps.map (·.2) = alterActions .mysql cur coll a ∧
      ∀ p ∈ ps, IsPart .mysql cur a.destTable.tableSchema p.1 p.2 := by
    refine ⟨a.dropConstraints.map (fun c => (b!"DROP CONSTRAINT " ++
        quoteIdentifier .mysql c.constraintName, .dropConstraint c.constraintName)) ++
      a.dropIndexes.map (fun x => (b!"DROP INDEX " ++ quoteIdentifier .mysql x.indexName,
        .dropIndex x.indexName)) ++
      a.dropColumns.map (fun c => (b!"DROP COLUMN " ++ quoteIdentifier .mysql c.columnName,
        .dropColumn c.columnName)) ++
      a.addColumns.map (fun c => (b!"ADD COLUMN " ++ columnDef .mysql coll c false,
        .addColumn (colOf .mysql coll false c))) ++
      a.alterColumns.map (fun p => (b!"MODIFY COLUMN " ++ columnDef .mysql coll p.2 false,
        .modifyColumn (colOf .mysql coll false p.2))) ++
      a.createIndexes.map (fun x => (b!"ADD " ++ indexDef .mysql cur x false true,
        .addIndex (idxOf .mysql cur false true x))) ++
      a.addConstraints.map (fun c => (b!"ADD " ++ constraintDef .mysql cur c,
        .addConstraint (conOf .mysql cur c))), ?_, ?_, ?_⟩
    · simp only [Mysql.alterParts, List.map_append, List.map_map, Function.comp_def]
    · simp only [alterActions, List.map_append, List.map_map, Function.comp_def]
    · intro p hp
      simp only [List.mem_append, List.mem_map] at hp
      rcases hp with (((((⟨c, hc, rfl⟩ | ⟨c, hc, rfl⟩) | ⟨c, hc, rfl⟩) | ⟨c, hc, rfl⟩) |
        ⟨c, hc, rfl⟩) | ⟨c, hc, rfl⟩) | ⟨c, hc, rfl⟩
      · exact isPart_dropConstraint _ _ _ _ (h.dropConstraints c hc)
      · exact isPart_dropIndex _ _ _ _ (h.dropIndexes c hc)
      · exact isPart_dropColumn _ _ _ _ (h.dropColumns c hc)
      · exact isPart_addColumn _ _ _ _ _ (h.addColumns c hc)
      · exact isPart_modifyColumn _ _ _ _ _ (h.alterColumns c hc)
      · exact isPart_addIndex _ _ _ (h.createIndexes c hc)
      · have := h.addConstraints c hc
        rw [← this.2]
        exact isPart_addConstraint _ _ _ this.1
  obtain ⟨ps, e1, e2, e3⟩ := key
  have h0 : ps ≠ [] := by
    intro e; subst e; exact h.some e2.symm
  have := isStmt_alterTable .mysql cur a.destTable.tableSchema a.destTable.tableName h.schema h.name
    ps h0 e3 (Mysql.joinParts (Mysql.alterParts cur coll a)) b!"\n;\n" (by decide) (by
      intro qs hq hr
      have q0 : qs ≠ [] := by
        intro e; subst e; simp at hq; exact h0 hq
      have := piece_items .mysql qs [] q0 hr (by simp)
      rw [joinParts_eq, ← e1, ← hq]
      simpa using this)
  rw [e2] at this
  exact this

/-- C66: the ALTER TABLE that drops a foreign key. -/
theorem mysql_dropFkey_reads_back (cur : Str) (c : Constraint)
    (hs : c.tableSchema ≠ [] → PlainName .mysql c.tableSchema) (hn : PlainName .mysql c.tableName)
    (h : PlainName .mysql c.constraintName) :
    IsStmt .mysql cur (Mysql.dropFkey cur c) (dropConstraintOf cur c) := by
  have := isStmt_alterTable .mysql cur c.tableSchema c.tableName hs hn
    [(b!"DROP CONSTRAINT " ++ quoteIdentifier .mysql c.constraintName,
      .dropConstraint c.constraintName)] (by simp)
    (by simpa using isPart_dropConstraint .mysql cur c.tableSchema _ h)
    (b!" DROP CONSTRAINT " ++ quoteIdentifier .mysql c.constraintName) b!";\n" gap_semi (by
      intro qs hq hr
      match qs with
      | [] => simp at hq
      | _ :: _ :: _ => simp at hq
      | [q] =>
        simp only [List.map_cons, List.map_nil, List.cons.injEq, and_true] at hq
        have := Piece.lit_then .mysql b!" " [] _ _ (by decide) (hr q (by simp))
        rw [hq] at this
        simpa [commaSep] using this)
  simpa [Mysql.dropFkey, dropConstraintOf, List.append_assoc] using this

/-- C66: the ALTER TABLE that adds a foreign key. -/
theorem mysql_addFkey_reads_back (cur : Str) (c : Constraint)
    (hs : c.tableSchema ≠ [] → PlainName .mysql c.tableSchema) (hn : PlainName .mysql c.tableName)
    (h : ConstraintOk .mysql cur c) :
    IsStmt .mysql cur (Mysql.addFkey cur c) (addConstraintOf .mysql cur c) := by
  have := isStmt_alterTable .mysql cur c.tableSchema c.tableName hs hn
    [(b!"ADD " ++ constraintDef .mysql cur c, .addConstraint (conOf .mysql cur c))] (by simp)
    (by simpa using isPart_addConstraint .mysql cur c h)
    (b!" ADD " ++ constraintDef .mysql cur c) b!";\n" gap_semi (by
      intro qs hq hr
      match qs with
      | [] => simp at hq
      | _ :: _ :: _ => simp at hq
      | [q] =>
        simp only [List.map_cons, List.map_nil, List.cons.injEq, and_true] at hq
        have := Piece.lit_then .mysql b!" " [] _ _ (by decide) (hr q (by simp))
        rw [hq] at this
        simpa [commaSep] using this)
  simpa [Mysql.addFkey, addConstraintOf, List.append_assoc] using this

end Sqddl.Render
