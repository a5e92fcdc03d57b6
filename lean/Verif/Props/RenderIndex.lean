import Verif.Props.RenderConstraint
import Verif.Props.Wipe
import Verif.Lemmas.DdlIdx

/-!
# Indexes are read back with all their attributes (C66)
-/

namespace Sqddl.Render
open Go SqlSpec DdlText
open Sqddl.Wipe (qualified)

theorem toUpper_toLower (s : Str) : toUpper (toLower s) = toUpper s := by
  simp only [toLower, toUpper, List.map_map]
  apply List.map_congr_left
  intro c _; exact upperC_lowerC c

theorem upper_eq_iff (s : Str) (u : Str) (hu : toUpper (toLower u) = u) :
    toUpper s = u ↔ toLower s = toLower u := by
  constructor
  · intro h; rw [← h, toLower_toUpper]
  · intro h; rw [← toUpper_toLower, h, hu]

/-- The name of a table, as it is written. -/
def tableName (cur s n : Str) : Name := (if s = [] ∨ s = cur then none else some s, n)

theorem readsP_qualified (d : Dialect) (cur s n : Str) :
    ReadsP d (qualified d cur s n) (qnameToks d (tableName cur s n)) := by
  have h := (Wipe.reads_qualified d cur s n).readsP
  have : Wipe.nameToks d cur s n = qnameToks d (tableName cur s n) := by
    unfold Wipe.nameToks qnameToks tableName
    by_cases h : s ≠ [] ∧ s ≠ cur
    · have h' : ¬ (s = [] ∨ s = cur) := by grind
      simp [h, h']
    · have h' : s = [] ∨ s = cur := by grind
      simp only [h, h', if_false, if_true]; rfl
  rwa [this] at h

theorem idxCols_written (d : Dialect) (cols : List Str) (ds : List Bool)
    (h : ∀ c ∈ cols, if isExpr c then ExprText d c else PlainName d c) :
    ReadsP d (join b!", " (indexColumns d cols ds))
        (commaSep ((idxColsOf d cols ds).map (idxColToks d))) ∧
      ∀ x ∈ idxColsOf d cols ds, IdxColOk d x := by
  have key : ∃ ps : List (Str × List Tok), ps.map (·.1) = indexColumns d cols ds ∧
      ps.map (·.2) = (idxColsOf d cols ds).map (idxColToks d) ∧ (∀ p ∈ ps, ReadsP d p.1 p.2) ∧
      ∀ x ∈ idxColsOf d cols ds, IdxColOk d x := by
    induction cols generalizing ds with
    | nil => exact ⟨[], rfl, rfl, by simp, by simp [idxColsOf]⟩
    | cons c cs ih =>
      obtain ⟨ps, e1, e2, e3, e4⟩ := ih ds.tail (fun x hx => h x (by simp [hx]))
      have hc := h c (by simp)
      have pd := piece_optWords d (ds.headD false) b!" DESC" [b!"DESC"] (by decide)
      have hw : wrappedInBrackets c = isExpr c := by
        unfold wrappedInBrackets isExpr
        cases c <;> simp
      by_cases hx : isExpr c = true
      · rw [if_pos hx] at hc
        have h0 : c ≠ [] := by intro e; subst e; simp [isExpr] at hx
        obtain ⟨r, hb⟩ := readsP_wrapBrackets d c h0 hc
        have hr : wrapBrackets c = c := by
          unfold wrapBrackets; rw [if_neg h0, if_pos (hw.trans hx)]
        rw [hr] at r
        refine ⟨(c ++ opt (ds.headD false) b!" DESC",
          idxColToks d (.expr (exprToks d c) (ds.headD false))) :: ps, ?_, ?_, ?_, ?_⟩
        · simp [indexColumns, hw, hx, e1]
        · simp [idxColsOf, hx, e2]
        · intro p hp
          simp only [List.mem_cons] at hp
          rcases hp with rfl | hp
          · simpa [idxColToks, List.append_assoc] using r.piece pd
          · exact e3 p hp
        · intro x hxx
          simp only [idxColsOf, hx, if_true, List.mem_cons] at hxx
          rcases hxx with rfl | hxx
          · exact hb
          · exact e4 x hxx
      · rw [if_neg hx] at hc
        refine ⟨(quoteIdentifier d c ++ opt (ds.headD false) b!" DESC",
          idxColToks d (.column c (ds.headD false))) :: ps, ?_, ?_, ?_, ?_⟩
        · simp [indexColumns, hw, hx, e1]
        · simp [idxColsOf, hx, e2]
        · intro p hp
          simp only [List.mem_cons] at hp
          rcases hp with rfl | hp
          · simpa [idxColToks] using (readsP_ident d c).piece pd
          · exact e3 p hp
        · intro x hxx
          simp only [idxColsOf, hx, Bool.false_eq_true, if_false, List.mem_cons] at hxx
          rcases hxx with rfl | hxx
          · exact hc
          · exact e4 x hxx
  obtain ⟨ps, e1, e2, e3, e4⟩ := key
  refine ⟨?_, e4⟩
  rw [← e1, ← e2]
  exact readsP_join d ps e3

/-- The index, as it is written. -/
def writtenIdx (d : Dialect) (cur : Str) (conc inline : Bool) (x : Index) : Idx :=
  { idxOf d cur conc inline x with
    kind := if special d x then some x.indexType else none
    method :=
      if x.indexType ≠ [] && (d = .mysql || d = .postgres) && toLower x.indexType ≠ b!"btree" &&
        !special d x then some x.indexType else none }

theorem fold_writtenIdx (d : Dialect) (cur : Str) (conc inline : Bool) (x : Index) :
    (writtenIdx d cur conc inline x).fold = idxOf d cur conc inline x := by
  unfold writtenIdx Idx.fold idxOf
  simp only [Idx.mk.injEq, true_and, and_true]
  constructor <;> split <;> simp

/-- A WHERE is written. -/
def wherePart (d : Dialect) (x : Index) : Bool :=
  x.predicate ≠ [] && (d = .sqlite || d = .postgres || d = .sqlserver)

theorem readsP_indexDef (d : Dialect) (cur : Str) (conc inline : Bool) (x : Index)
    (h : IndexOk d inline x) :
    ReadsP d (indexDef d cur x conc inline)
        (idxToks d (writtenIdx d cur conc inline x) (wherePart d x)) ∧
      (writtenIdx d cur conc inline x).Ok d (wherePart d x) := by
  obtain ⟨hj, hjo⟩ := idxCols_written d x.columns x.descending h.columns
  have hd := h.dialect
  have hfs : fulltextOrSpatial d x = special d x := by
    have e1 := upper_eq_iff x.indexType b!"FULLTEXT" (by decide)
    have e2 := upper_eq_iff x.indexName b!"SPATIAL" (by decide)
    have e3 : toLower b!"FULLTEXT" = b!"fulltext" := by decide
    have e4 : toLower b!"SPATIAL" = b!"spatial" := by decide
    rw [e3] at e1; rw [e4] at e2
    have := h.spatial
    unfold fulltextOrSpatial special
    simp only [e1, e2]
    by_cases hm : d = .mysql
    · have := this hm
      simp [hm, this.1, this.2]
    · simp [hm]
  have hbt : decide (toUpper x.indexType ≠ b!"BTREE") = decide (toLower x.indexType ≠ b!"btree") := by
    have e1 := upper_eq_iff x.indexType b!"BTREE" (by decide)
    have e3 : toLower b!"BTREE" = b!"btree" := by decide
    rw [e3] at e1
    simp only [ne_eq, e1]
  refine ⟨?_, ?_⟩
  · -- the head
    have p1 : Reads d (if x.isUnique then b!"UNIQUE " else
        opt (fulltextOrSpatial d x) (x.indexType ++ b!" "))
        (if x.isUnique then [.word b!"UNIQUE"] else
          (writtenIdx d cur conc inline x).kind.toList.map Tok.word) := by
      cases hu : x.isUnique
      · simp only [Bool.false_eq_true, if_false, writtenIdx, hfs]
        cases hs : special d x
        · simpa [opt] using Reads.nil d
        · have h0 : x.indexType ≠ [] := by
            intro e; simp [special, e, toLower] at hs
          simpa [opt] using (reads_word d x.indexType h0 h.type).readsP.lit (t := b!" ") (us := [])
            (by decide)
      · exact reads_lit d b!"UNIQUE " (by decide) (by decide)
    have p2 : Reads d b!"INDEX " [.word b!"INDEX"] := reads_lit d _ (by decide) (by decide)
    have p3 : Reads d (opt (conc && d = .postgres) b!"CONCURRENTLY ")
        (optWords (conc && d = .postgres) [b!"CONCURRENTLY"]) := by
      cases conc && d = .postgres
      · exact Reads.nil d
      · exact reads_lit d _ (by decide) (by decide)
    have p4 := readsP_ident d x.indexName
    have pu : x.indexType ≠ [] → Piece d (b!" USING " ++ x.indexType)
        [.word b!"USING", .word x.indexType] := fun h0 =>
      Piece.lit_then d b!" USING " [.word b!"USING"] _ _ (by decide)
        (reads_word d x.indexType h0 h.type).readsP
    -- USING of MySQL
    have p5 : Piece d (opt (x.indexType ≠ [] && d = .mysql && toUpper x.indexType ≠ b!"BTREE" &&
          !fulltextOrSpatial d x)
        (opt (!inline) b!" USING" ++ b!" " ++ x.indexType))
        (usingToks (d = .mysql) (writtenIdx d cur conc inline x).method) := by
      rw [hfs]
      rw [hbt]
      by_cases hm : d = .mysql
      · subst hm
        unfold usingToks writtenIdx
        by_cases hc : (x.indexType ≠ [] && toLower x.indexType ≠ b!"btree" &&
            !special .mysql x) = true
        · have hi : inline = false := by
            cases hi : inline with
            | false => rfl
            | true =>
              have := (h.inline hi).2
              simp only [List.mem_cons, List.not_mem_nil, or_false] at this
              simp only [Bool.and_eq_true, decide_eq_true_eq] at hc
              rcases this with e | e | e
              · simp [toLower] at e; exact absurd e hc.1.1
              · exact absurd e hc.1.2
              · simp [special, e] at hc
          simp only [Bool.and_eq_true, decide_eq_true_eq] at hc
          have := pu hc.1.1
          have hs : special .mysql x = false := by simpa using hc.2
          simpa [opt, hi, hc.1.1, hc.1.2, hs] using this
        · have e1 : (x.indexType ≠ [] && decide (Dialect.mysql = .mysql) &&
              decide (toLower x.indexType ≠ b!"btree") && !special .mysql x) = false := by
            simpa using hc
          have e2 : (x.indexType ≠ [] && (decide (Dialect.mysql = .mysql) || decide (Dialect.mysql = .postgres))
              && decide (toLower x.indexType ≠ b!"btree") && !special .mysql x) = false := by
            simpa using hc
          rw [e1, e2]
          simpa [opt] using Piece.nil _
      · simpa [hm, usingToks, opt] using Piece.nil d
    have p6 : Piece d (opt (!inline) (b!" ON " ++ qualified d cur x.tableSchema x.tableName))
        ((writtenIdx d cur conc inline x).table.toList.flatMap fun n => .word b!"ON" :: qnameToks d n) := by
      cases inline
      · have := Piece.lit_then d b!" ON " [.word b!"ON"] _ _ (by decide)
          (readsP_qualified d cur x.tableSchema x.tableName)
        simpa [opt, writtenIdx, idxOf, tableName] using this
      · simpa [opt, writtenIdx, idxOf] using Piece.nil d
    have p7 : Piece d (opt (x.indexType ≠ [] && d = .postgres && toUpper x.indexType ≠ b!"BTREE")
        (b!" USING " ++ x.indexType))
        (usingToks (d = .postgres) (writtenIdx d cur conc inline x).method) := by
      rw [hbt]
      by_cases hm : d = .postgres
      · subst hm
        have hs : special .postgres x = false := by simp [special]
        unfold usingToks writtenIdx
        rw [hs]
        by_cases hc : (x.indexType ≠ [] && toLower x.indexType ≠ b!"btree") = true
        · simp only [Bool.and_eq_true, decide_eq_true_eq] at hc
          have := pu hc.1
          simpa [opt, hc.1, hc.2] using this
        · have e1 : (x.indexType ≠ [] && decide (Dialect.postgres = .postgres) &&
              decide (toLower x.indexType ≠ b!"btree")) = false := by
            simpa using hc
          have e2 : (x.indexType ≠ [] && (decide (Dialect.postgres = .mysql) ||
              decide (Dialect.postgres = .postgres))
              && decide (toLower x.indexType ≠ b!"btree") && !false) = false := by
            simpa using hc
          rw [e1, e2]
          simpa [opt] using Piece.nil _
      · simpa [hm, usingToks, opt] using Piece.nil d
    have p8 := (Piece.lit_then d b!" (" [.punct '('] _ _ (by decide) hj).append
      (Piece.lit d b!")" [.punct ')'] (by decide))
    have p9 : Piece d (opt (!x.includeColumns.isEmpty && (d = .postgres || d = .sqlserver))
        (b!" INCLUDE (" ++ columnNames d x.includeColumns ++ b!")"))
        (if (writtenIdx d cur conc inline x).incl = [] then []
          else .word b!"INCLUDE" :: groupToks d (writtenIdx d cur conc inline x).incl) := by
      have q := (Piece.lit_then d b!" INCLUDE (" [.word b!"INCLUDE", .punct '('] _ _ (by decide)
        (readsP_colNames d x.includeColumns)).append (Piece.lit d b!")" [.punct ')'] (by decide))
      by_cases hm : d = .postgres ∨ d = .sqlserver
      · have hm' : (d = .postgres || d = .sqlserver : Bool) = true := by simpa using hm
        simp only [hm', Bool.and_true, writtenIdx, idxOf, hm, if_true]
        by_cases hi : x.includeColumns = []
        · simpa [hi, opt] using Piece.nil d
        · have : x.includeColumns.isEmpty = false := by simpa using hi
          simpa [hi, this, opt, groupToks, columnNames] using q
      · have hm' : (d = .postgres || d = .sqlserver : Bool) = false := by simpa using hm
        simpa [hm', writtenIdx, idxOf, hm, opt] using Piece.nil d
    have p10 : Piece d (opt (wherePart d x) (b!" WHERE " ++ x.predicate))
        (if wherePart d x then .word b!"WHERE" :: (writtenIdx d cur conc inline x).pred else []) := by
      have q := piece_clause (d := d) (wherePart d x) b!" WHERE " [.word b!"WHERE"] (t := x.predicate)
        (by decide) (fun _ => h.pred.1)
      cases hw : wherePart d x
      · rw [hw] at q; exact q
      · have hm : d ≠ .mysql := by
          intro e; subst e; simp [wherePart] at hw
        rw [hw] at q
        simpa [writtenIdx, idxOf, hm] using q
    have p := (p1.append (p2.append p3)).append_p
      (p4.piece (p5.append (p6.append (p7.append (p8.append (p9.append p10))))))
    unfold indexDef idxToks
    simp only [List.append_assoc, List.cons_append, List.nil_append] at p ⊢
    exact p
  · refine ⟨?_, ?_, hd, h.name, ?_, ?_, ?_, ?_, ?_, hjo, ?_, ?_⟩
    · intro k hk
      simp only [writtenIdx] at hk
      split at hk
      · rename_i hs
        cases hk
        refine ⟨h.fulltext hs, ?_⟩
        simp [special] at hs
        exact hs.2
      · cases hk
    · intro hc
      simp [writtenIdx, idxOf] at hc
      exact hc.2
    · intro n hn s hs
      simp only [writtenIdx, idxOf] at hn
      split at hn
      · cases hn
      · cases hn
        simp only at hs
        split at hs
        · cases hs
        · rename_i hq; cases hs; exact h.schema (by grind)
    · intro n hn
      simp only [writtenIdx, idxOf] at hn
      split at hn
      · cases hn
      · cases hn; exact h.table
    · intro m hm
      simp only [writtenIdx] at hm
      split at hm
      · rename_i hb
        simp only [Bool.and_eq_true, Bool.or_eq_true, decide_eq_true_eq] at hb
        exact hb.1.1.2
      · cases hm
    · intro ht
      simp only [writtenIdx, idxOf] at ht
      split at ht
      · rename_i hi; exact (h.inline hi).1
      · cases ht
    · have := h.some
      simp only [writtenIdx, idxOf]
      cases e : x.columns with
      | nil => exact absurd e this
      | cons c r => simp [idxColsOf]
    · intro c hc
      simp only [writtenIdx, idxOf] at hc
      split at hc
      · exact h.incl c hc
      · cases hc
    · intro hw
      simp only [writtenIdx, idxOf]
      split
      · rfl
      · rename_i hm
        have : x.predicate = [] := by
          simp only [wherePart] at hw
          cases d <;> simp_all
        rw [this]; rfl

/-- C66: an index is read back as the index, with all its attributes. -/
theorem indexDef_reads_back (d : Dialect) (cur : Str) (conc inline : Bool) (x : Index)
    (h : IndexOk d inline x) :
    (lex d (indexDef d cur x conc inline)).bind (readIdx d (keywords d) inline) =
      some (idxOf d cur conc inline x) := by
  obtain ⟨p, ok⟩ := readsP_indexDef d cur conc inline x h
  have e : (writtenIdx d cur conc inline x).table.isNone = inline := by
    simp only [writtenIdx, idxOf]
    cases inline <;> rfl
  rw [lex_of_readsP p, Option.bind_some]
  have := readIdx_eq d _ _ ok
  rw [e, fold_writtenIdx] at this
  exact this

end Sqddl.Render
