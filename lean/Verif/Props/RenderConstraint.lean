import Verif.Props.RenderColumn
import Verif.Lemmas.DdlCon

/-!
# Constraints are read back with all their attributes (C66)
-/

namespace Sqddl.Render
open Go SqlSpec DdlText

theorem piece_group (d : Dialect) (cols : List Str) :
    Piece d (b!" (" ++ columnNames d cols ++ b!")") (groupToks d cols) := by
  have := (Piece.lit_then d b!" (" [.punct '('] _ _ (by decide) (readsP_colNames d cols)).append
    (Piece.lit d b!")" [.punct ')'] (by decide))
  simpa [groupToks, columnNames] using this

theorem reads_constraintName (d : Dialect) (c : Constraint) :
    Reads d (constraintName d c) ((if c.constraintName = [] then none
      else some c.constraintName : Option Str).toList.flatMap
        fun n => [.word b!"CONSTRAINT", identTok d n]) := by
  unfold constraintName opt
  by_cases h : c.constraintName = []
  · simp [h, Reads.nil]
  · have h1 : Reads d b!"CONSTRAINT " [.word b!"CONSTRAINT"] := reads_lit d _ (by decide) (by decide)
    have := h1.append ((readsP_ident d c.constraintName).lit (t := b!" ") (us := []) (by decide))
    simpa [h] using this

/-! ## References -/

/-- The name of the referenced table, as it is written. -/
def refName (d : Dialect) (cur : Str) (c : Constraint) : Name :=
  (if c.referencesSchema ≠ [] ∧ c.referencesSchema ≠ cur then some c.referencesSchema
   else if d = .mysql ∧ c.tableSchema ≠ c.referencesSchema then
     some (if c.referencesSchema = [] then cur else c.referencesSchema)
   else none, c.referencesTable)

/-- The name denotes the referenced table. -/
theorem resolve_refName (d : Dialect) (cur : Str) (c : Constraint)
    (hs : d = .sqlite → (c.referencesSchema = [] ∨ c.referencesSchema = cur) ∧
      (c.tableSchema = [] ∨ c.tableSchema = cur)) :
    DdlText.resolve d cur c.tableSchema (refName d cur c) =
      (some (if c.referencesSchema = [] then cur else c.referencesSchema), c.referencesTable) := by
  unfold refName DdlText.resolve implicitSchema
  by_cases h1 : c.referencesSchema ≠ [] ∧ c.referencesSchema ≠ cur
  · simp [h1]
  rw [if_neg h1]
  by_cases h2 : d = .mysql ∧ c.tableSchema ≠ c.referencesSchema
  · simp only [h2, ne_eq, not_false_eq_true, and_self, if_true, Option.getD_some]
  rw [if_neg h2]
  simp only [Option.getD_none, Prod.mk.injEq, Option.some.injEq, and_true]
  grind

theorem readsP_refName (d : Dialect) (cur : Str) (c : Constraint) :
    ReadsP d (referencesTable d cur c) (qnameToks d (refName d cur c)) := by
  have two : ∀ s t, ReadsP d (quoteIdentifier d s ++ b!"." ++ quoteIdentifier d t)
      (qnameToks d (some s, t)) := by
    intro s t
    have := ((readsP_ident d s).lit (t := b!".") (us := [.punct '.']) (by decide)).append_p
      (readsP_ident d t)
    simpa [qnameToks] using this
  have one : ∀ t, ReadsP d (quoteIdentifier d t) (qnameToks d (none, t)) := by
    intro t
    simpa [qnameToks] using readsP_ident d t
  unfold referencesTable refName
  by_cases h1 : c.referencesSchema ≠ [] ∧ c.referencesSchema ≠ cur
  · rw [if_pos h1, if_pos h1]; exact two _ _
  rw [if_neg h1, if_neg h1]
  by_cases h2 : d = .mysql ∧ c.tableSchema ≠ c.referencesSchema
  · rw [if_pos h2, if_pos h2]; exact two _ _
  rw [if_neg h2, if_neg h2]
  exact one _

/-- The reference, as it is written. -/
def writtenRef (d : Dialect) (cur : Str) (c : Constraint) : Ref :=
  ⟨refName d cur c, c.referencesColumns, none, ruleD c.updateRule, ruleD c.deleteRule⟩

theorem piece_references (d : Dialect) (cur : Str) (c : Constraint) (h : ForeignOk d cur c) :
    Piece d (references d cur c) (refToks d (writtenRef d cur c)) := by
  have p1 := (((Piece.lit_then d b!" REFERENCES " [.word b!"REFERENCES"] _ _ (by decide)
    (readsP_refName d cur c)).append (piece_group d c.referencesColumns)).append
    (piece_rule d b!" ON UPDATE " b!"UPDATE" c.updateRule (by decide) h.updateRule)).append
    (piece_rule d b!" ON DELETE " b!"DELETE" c.deleteRule (by decide) h.deleteRule)
  simpa [references, refToks, groupToks, writtenRef, List.append_assoc] using p1

theorem plainRef_written (d : Dialect) (cur : Str) (c : Constraint) (h : ForeignOk d cur c) :
    PlainRef d (writtenRef d cur c) := by
  refine ⟨?_, h.table, rfl, h.some, h.columns⟩
  intro s hs
  unfold writtenRef refName at hs
  simp only at hs
  split at hs
  · rename_i h1; cases hs; exact h.schema h1.1
  · split at hs
    · cases hs
      split
      · exact h.current
      · rename_i h2; exact h.schema h2
    · cases hs

/-! ## EXCLUDE -/

theorem elems_written (d : Dialect) (cols ops : List Str)
    (h1 : ∀ x ∈ cols, Fragment d x ∧ flat 0 (toks d x) ∧ quiet [b!"WITH"] 0 (toks d x))
    (h2 : ∀ x ∈ ops, Fragment d x ∧ flat 0 (toks d x)) :
    ReadsP d (join b!", " (exclusionColumns cols ops))
        (commaSep ((elemsOf d cols ops).map elemToks)) ∧
      ∀ x ∈ elemsOf d cols ops, flat 0 x.1 ∧ quiet [b!"WITH"] 0 x.1 ∧ flat 0 x.2 := by
  have hop : ∀ ops : List Str, (∀ x ∈ ops, Fragment d x ∧ flat 0 (toks d x)) →
      Fragment d (ops.headD []) ∧ flat 0 (toks d (ops.headD [])) := by
    intro ops h
    cases ops with
    | nil => exact ⟨by cases d <;> decide +kernel, rfl⟩
    | cons o r => exact h o (by simp)
  have key : ∃ ps : List (Str × List Tok), ps.map (·.1) = exclusionColumns cols ops ∧
      ps.map (·.2) = (elemsOf d cols ops).map elemToks ∧ ∀ p ∈ ps, ReadsP d p.1 p.2 := by
    induction cols generalizing ops with
    | nil => exact ⟨[], rfl, rfl, by simp⟩
    | cons c cs ih =>
      obtain ⟨ps, e1, e2, e3⟩ := ih ops.tail (fun x hx => h1 x (by simp [hx]))
        (fun x hx => h2 x (List.mem_of_mem_tail hx))
      refine ⟨(c ++ b!" WITH " ++ ops.headD [], elemToks (toks d c, toks d (ops.headD []))) :: ps,
        by simp [e1, exclusionColumns], by simp [e2, elemsOf], ?_⟩
      intro p hp
      simp only [List.mem_cons] at hp
      rcases hp with rfl | hp
      · have := (readsP_toks (h1 c (by simp)).1).piece (Piece.lit_then d b!" WITH "
          [.word b!"WITH"] _ _ (by decide) (readsP_toks (hop ops h2).1))
        simpa [elemToks, List.append_assoc] using this
      · exact e3 p hp
  refine ⟨?_, ?_⟩
  · obtain ⟨ps, e1, e2, e3⟩ := key
    rw [← e1, ← e2]
    exact readsP_join d ps e3
  · clear key
    induction cols generalizing ops with
    | nil => simp [elemsOf]
    | cons c cs ih =>
      intro x hx
      simp only [elemsOf, List.mem_cons] at hx
      rcases hx with rfl | hx
      · have := h1 c (by simp)
        exact ⟨this.2.1, this.2.2, (hop ops h2).2⟩
      · exact ih ops.tail (fun x hx => h1 x (by simp [hx]))
          (fun x hx => h2 x (List.mem_of_mem_tail hx)) x hx

/-- The kind of an EXCLUDE constraint, as it is written. -/
def writtenExclude (d : Dialect) (c : Constraint) : ConKind :=
  .exclude (if c.exclusionIndexType = [] then none else some c.exclusionIndexType)
    (elemsOf d c.columns c.exclusionOperators)
    (if c.exclusionPredicate = [] then none else some (toks d c.exclusionPredicate))

theorem readsP_exclude (d : Dialect) (c : Constraint) (h : ExcludeOk d c) :
    ReadsP d (b!"EXCLUDE" ++ exclusion c) (kindToks d (writtenExclude d c)) ∧
      KindOk d (writtenExclude d c) := by
  obtain ⟨h1, h2⟩ := elems_written d c.columns c.exclusionOperators h.elems h.operators
  have p0 : ReadsP d b!"EXCLUDE" [.word b!"EXCLUDE"] := readsP_lit d _ (by decide)
  have p1 : Piece d (opt (decide (c.exclusionIndexType ≠ [])) (b!" USING " ++ c.exclusionIndexType))
      ((if c.exclusionIndexType = [] then none else some c.exclusionIndexType : Option Str).toList.flatMap
        fun x => [.word b!"USING", .word x]) := by
    by_cases hm : c.exclusionIndexType = []
    · simp [hm, opt, Piece.nil]
    · have := Piece.lit_then d b!" USING " [.word b!"USING"] _ _ (by decide)
        (reads_word d c.exclusionIndexType hm h.method).readsP
      simpa [hm, opt] using this
  have p2 := (Piece.lit_then d b!" (" [.punct '('] _ _ (by decide) h1).append
    (Piece.lit d b!")" [.punct ')'] (by decide))
  have p3 : Piece d (opt (decide (c.exclusionPredicate ≠ []))
      (b!" WHERE (" ++ c.exclusionPredicate ++ b!")"))
      ((if c.exclusionPredicate = [] then none else
        some (toks d c.exclusionPredicate) : Option (List Tok)).toList.flatMap
        fun x => .word b!"WHERE" :: .punct '(' :: (x ++ [.punct ')'])) := by
    by_cases hm : c.exclusionPredicate = []
    · simp [hm, opt, Piece.nil]
    · have := (Piece.lit_then d b!" WHERE (" [.word b!"WHERE", .punct '('] _ _ (by decide)
        (readsP_toks h.pred.1)).append (Piece.lit d b!")" [.punct ')'] (by decide))
      simpa [hm, opt] using this
  refine ⟨?_, ?_, h2, ?_⟩
  · have := p0.piece ((p1.append p2).append p3)
    simpa [exclusion, writtenExclude, kindToks, List.append_assoc] using this
  · have := h.some
    cases e : c.columns with
    | nil => exact absurd e this
    | cons x r => simp [elemsOf]
  · intro x hx
    split at hx
    · cases hx
    · cases hx; exact h.pred.2

/-! ## The whole definition -/

/-- The constraint, as it is written. -/
def writtenCon (d : Dialect) (cur : Str) (c : Constraint) : Con :=
  { conOf d cur c with
    kind := if c.constraintType = b!"FOREIGN KEY" then .foreign c.columns (writtenRef d cur c)
      else if c.constraintType = b!"EXCLUDE" then writtenExclude d c
      else kindOf d cur c }

theorem resolve_writtenCon (d : Dialect) (cur : Str) (c : Constraint) (h : ConstraintOk d cur c) :
    Con.resolve d cur c.tableSchema
      { writtenCon d cur c with kind := foldKind (writtenCon d cur c).kind } = conOf d cur c := by
  have ht := h.type
  simp only [List.mem_cons, List.not_mem_nil, or_false] at ht
  rcases ht with e | e | e | e | e
  · simp [writtenCon, Con.resolve, conOf, kindOf, e, foldKind]
  · simp [writtenCon, Con.resolve, conOf, kindOf, e, foldKind]
  · have hf := h.foreign e
    have := resolve_refName d cur c hf.sqlite
    simp [writtenCon, Con.resolve, conOf, kindOf, e, foldKind, writtenRef, this, hf.matching]
  · simp [writtenCon, Con.resolve, conOf, kindOf, e, foldKind]
  · simp [writtenCon, Con.resolve, conOf, kindOf, e, foldKind, writtenExclude]
    split <;> simp

theorem piece_conTail (d : Dialect) (cur : Str) (c : Constraint) :
    Piece d (deferrable d c.isDeferrable c.isInitiallyDeferred)
      (optWords (conOf d cur c).deferrable [b!"DEFERRABLE"] ++
        optWords (conOf d cur c).initiallyDeferred [b!"INITIALLY", b!"DEFERRED"]) :=
  piece_deferrable d c.isDeferrable c.isInitiallyDeferred

theorem readsP_constraintDef (d : Dialect) (cur : Str) (c : Constraint) (h : ConstraintOk d cur c) :
    ReadsP d (constraintDef d cur c) (conToks d (writtenCon d cur c)) ∧ (writtenCon d cur c).Ok d := by
  have ht := h.type
  have hn : ∀ n ∈ (writtenCon d cur c).name, PlainName d n := by
    intro n hn
    simp only [writtenCon, conOf] at hn
    split at hn
    · cases hn
    · rename_i h1; cases hn; exact h.name (by grind)
  have hname : ¬ (d = .mysql ∧ c.constraintType = b!"PRIMARY KEY") → (writtenCon d cur c).name =
      if c.constraintName = [] then none else some c.constraintName := by
    intro hx
    simp only [writtenCon, conOf, hx, or_false]
  have p0 := reads_constraintName d c
  have pt := piece_conTail d cur c
  unfold constraintDef
  simp only [List.mem_cons, List.not_mem_nil, or_false] at ht
  rcases ht with e | e | e | e | e
  · -- PRIMARY KEY
    have hc := h.columns (by simp [e])
    have hk : (writtenCon d cur c).kind = .primary c.columns := by simp [writtenCon, kindOf, e]
    have ho : (writtenCon d cur c).Ok d := ⟨hn, by rw [hk]; exact hc, h.valid⟩
    refine ⟨?_, ho⟩
    have pg := piece_group d c.columns
    have pl : ReadsP d b!"PRIMARY KEY" [.word b!"PRIMARY", .word b!"KEY"] := readsP_lit d _ (by decide)
    by_cases hd : d = .mysql
    · subst hd
      have hdef : deferrable .mysql c.isDeferrable c.isInitiallyDeferred = [] := by
        simp [deferrable, opt]
      have h1 : (writtenCon .mysql cur c).deferrable = false := by simp [writtenCon, conOf, defers]
      have h2 : (writtenCon .mysql cur c).initiallyDeferred = false := by
        simp [writtenCon, conOf, defers]
      have h3 : (writtenCon .mysql cur c).name = none := by simp [writtenCon, conOf, e]
      have := pl.piece pg
      simpa [e, PRIMARY_KEY, conToks, hk, h1, h2, h3, kindToks, optWords, List.append_assoc] using this
    · have hnm := hname (by simp [hd])
      have := p0.append_p (pl.piece (pg.append pt))
      have e1 : ¬ (c.constraintType = PRIMARY_KEY ∧ d = .mysql) := by simp [hd]
      have e2 : c.constraintType ≠ CHECK := by rw [e]; decide
      rw [if_neg e1, if_neg e2]
      unfold conToks
      rw [hk, hnm]
      simpa [e, EXCLUDE, FOREIGN_KEY, opt, kindToks, writtenCon, List.append_assoc] using this
  · -- UNIQUE
    have hc := h.columns (by simp [e])
    have hk : (writtenCon d cur c).kind = .unique c.columns := by simp [writtenCon, kindOf, e]
    have ho : (writtenCon d cur c).Ok d := ⟨hn, by rw [hk]; exact hc, h.valid⟩
    refine ⟨?_, ho⟩
    have pl : ReadsP d b!"UNIQUE" [.word b!"UNIQUE"] := readsP_lit d _ (by decide)
    have hnm := hname (by simp [e])
    have := p0.append_p (pl.piece ((piece_group d c.columns).append pt))
    have e1 : ¬ (c.constraintType = PRIMARY_KEY ∧ d = .mysql) := by
      rw [e]; exact fun x => absurd x.1 (by decide)
    have e2 : c.constraintType ≠ CHECK := by rw [e]; decide
    rw [if_neg e1, if_neg e2]
    unfold conToks
    rw [hk, hnm]
    simpa [e, EXCLUDE, FOREIGN_KEY, opt, kindToks, writtenCon, List.append_assoc] using this
  · -- FOREIGN KEY
    have hc := h.columns (by simp [e])
    have hf := h.foreign e
    have hk : (writtenCon d cur c).kind = .foreign c.columns (writtenRef d cur c) := by
      simp [writtenCon, e]
    have ho : (writtenCon d cur c).Ok d :=
      ⟨hn, by rw [hk]; exact ⟨hc, plainRef_written d cur c hf⟩, h.valid⟩
    refine ⟨?_, ho⟩
    have pl : ReadsP d b!"FOREIGN KEY" [.word b!"FOREIGN", .word b!"KEY"] := readsP_lit d _ (by decide)
    have hnm := hname (by simp [e])
    have := p0.append_p (pl.piece (((piece_group d c.columns).append
      (piece_references d cur c hf)).append pt))
    have e1 : ¬ (c.constraintType = PRIMARY_KEY ∧ d = .mysql) := by
      rw [e]; exact fun x => absurd x.1 (by decide)
    have e2 : c.constraintType ≠ CHECK := by rw [e]; decide
    have e3 : c.constraintType ≠ EXCLUDE := by rw [e]; decide
    have e4 : c.constraintType = FOREIGN_KEY := by rw [e]; decide
    rw [if_neg e1, if_neg e2]
    unfold conToks
    rw [hk, hnm]
    have e5 : FOREIGN_KEY ≠ EXCLUDE := by decide
    have e6 : FOREIGN_KEY = b!"FOREIGN KEY" := rfl
    simp only [e4, e5, opt, kindToks, writtenCon, ne_eq, not_false_eq_true, decide_true, if_true,
      false_and, decide_false, Bool.false_eq_true, if_false, List.append_nil, List.append_assoc]
    simpa [e6, List.append_assoc] using this
  · -- CHECK
    obtain ⟨hc1, hc2, hc3⟩ := h.check e
    have hk : (writtenCon d cur c).kind = .check (toks d c.checkExpr) := by
      simp [writtenCon, kindOf, e]
    have ho : (writtenCon d cur c).Ok d := ⟨hn, by rw [hk]; exact hc2, h.valid⟩
    refine ⟨?_, ho⟩
    have pl : ReadsP d b!"CHECK" [.word b!"CHECK"] := readsP_lit d _ (by decide)
    have hnm := hname (by simp [e])
    have := p0.append_p (pl.piece ((Piece.lit_then d b!" (" [.punct '('] _ _ (by decide)
      (readsP_toks hc1)).append (Piece.lit d b!")" [.punct ')'] (by decide))))
    have e1 : ¬ (c.constraintType = PRIMARY_KEY ∧ d = .mysql) := by
      rw [e]; exact fun x => absurd x.1 (by decide)
    have e2 : c.constraintType = CHECK := by rw [e]; decide
    rw [if_neg e1, if_pos e2]
    unfold conToks
    rw [hk, hnm]
    simpa [e, opt, kindToks, writtenCon, conOf, hc3, optWords, List.append_assoc] using this
  · -- EXCLUDE
    have hx := h.exclude e
    obtain ⟨px, hxk⟩ := readsP_exclude d c hx
    have hk : (writtenCon d cur c).kind = writtenExclude d c := by simp [writtenCon, e]
    have ho : (writtenCon d cur c).Ok d := ⟨hn, by rw [hk]; exact hxk, h.valid⟩
    refine ⟨?_, ho⟩
    have hnm := hname (by simp [e])
    have := p0.append_p (px.piece pt)
    have e1 : ¬ (c.constraintType = PRIMARY_KEY ∧ d = .mysql) := by
      rw [e]; exact fun x => absurd x.1 (by decide)
    have e2 : c.constraintType ≠ CHECK := by rw [e]; decide
    have e3 : c.constraintType = EXCLUDE := by rw [e]; decide
    rw [if_neg e1, if_neg e2]
    unfold conToks
    rw [hk, hnm]
    have e5 : EXCLUDE ≠ FOREIGN_KEY := by decide
    have e6 : EXCLUDE = b!"EXCLUDE" := rfl
    simp only [e3, e5, opt, writtenCon, ne_eq, not_true_eq_false, decide_true, if_true,
      decide_false, Bool.false_eq_true, if_false, List.append_nil, List.append_assoc, hx.postgres,
      and_self]
    rw [← hx.postgres]
    simpa [e6, List.append_assoc] using this

/-- C66: a constraint is read back with all its attributes, and references the right table. -/
theorem constraintDef_reads_back (d : Dialect) (cur : Str) (c : Constraint)
    (h : ConstraintOk d cur c) :
    ((lex d (constraintDef d cur c)).bind (readCon d (keywords d))).map
      (Con.resolve d cur c.tableSchema) = some (conOf d cur c) := by
  obtain ⟨h1, h2⟩ := readsP_constraintDef d cur c h
  rw [lex_of_readsP h1, Option.bind_some, readCon_eq d _ h2, Option.map_some,
    resolve_writtenCon d cur c h]

end Sqddl.Render
