import Verif.Model.Render
import Verif.Lemmas.DdlRead
import Verif.Lemmas.Fragment

/-!
# Column definitions are read back as the columns (C66)
-/

namespace Sqddl.Render
open Go SqlSpec DdlText

theorem toks_eq {d : Dialect} {s : Str} {ts : List Tok} (h : lex d s = some ts) : toks d s = ts := by
  simp [toks, h]

theorem readsP_toks {d : Dialect} {s : Str} (h : Fragment d s) : ReadsP d s (toks d s) := by
  have h1 := h.1
  cases e : lex d s with
  | none => simp [e] at h1
  | some ts => rw [toks_eq e]; exact h.readsP e

theorem toks_nil (d : Dialect) : toks d [] = [] := rfl

/-- An optional clause. -/
theorem piece_opt {d : Dialect} {b : Bool} {s : Str} {ts : List Tok} (h : b = true → Piece d s ts) :
    Piece d (opt b s) (if b then ts else []) := by
  cases b
  · exact Piece.nil d
  · exact h rfl

theorem piece_optWords (d : Dialect) (b : Bool) (s : Str) (ws : List Str)
    (h : IsLit s (ws.map Tok.word)) : Piece d (opt b s) (optWords b ws) :=
  piece_opt fun _ => Piece.lit d s _ h

/-- A keyword and a fragment. -/
theorem piece_clause {d : Dialect} (b : Bool) (s : Str) (us : List Tok) {t : Str} (h : IsGap s us)
    (ht : b = true → Fragment d t) :
    Piece d (opt b (s ++ t)) (if b then us ++ toks d t else []) :=
  piece_opt fun hb => Piece.lit_then d s us t _ h (readsP_toks (ht hb))

/-! ## Types -/

theorem simpleChar_type (d : Dialect) (x : Char) (h : (wordChar x || isSpace x || x == '.' ||
    x == ',' || x == '(' || x == ')' || (d ≠ .sqlserver && (x == '[' || x == ']'))) = true) :
    simpleChar d x := by
  simp only [simpleChar, plainTextChar, Bool.or_eq_true] at h ⊢
  rcases h with (((((h | h) | h) | h) | h) | h) | h
  · exact Or.inl (Or.inl (Or.inl h))
  · exact Or.inl (Or.inl (Or.inr h))
  · simp at h; subst h; exact Or.inl (Or.inr (by decide))
  · simp at h; subst h; exact Or.inl (Or.inr (by decide))
  · simp at h; subst h; exact Or.inl (Or.inr (by decide))
  · simp at h; subst h; exact Or.inl (Or.inr (by decide))
  · exact Or.inr (by simpa using h)

theorem toks_simple (d : Dialect) (s : Str) (h : s.all (simpleChar d)) : toks d s = stoks s :=
  toks_eq (lex_of_readsP (readsP_simple d s h))

theorem toLower_toUpper (s : Str) : toLower (toUpper s) = toLower s := by
  simp only [toLower, toUpper, List.map_map]
  apply List.map_congr_left
  intro c _; exact lowerC_upperC c

theorem foldTok_upTok (t : Tok) : foldTok (upTok t) = foldTok t := by
  cases t <;> simp [foldTok, upTok, toLower_toUpper]

theorem isKw_upTok (k : Str) (t : Tok) : isKw k (upTok t) = isKw k t := by
  cases t <;> simp [isKw, upTok, toLower_toUpper]

theorem upTok_punct (t : Tok) (c : Char) : upTok t = .punct c ↔ t = .punct c := by
  cases t <;> simp [upTok]

theorem deeper_upTok (n : Nat) (t : Tok) : deeper n (upTok t) = deeper n t := by
  simp [deeper, upTok_punct]

theorem flat_upTok (n : Nat) (ts : List Tok) : flat n (ts.map upTok) = flat n ts := by
  induction ts generalizing n with
  | nil => rfl
  | cons t r ih => simp [flat, deeper_upTok, upTok_punct, ih]

theorem quiet_upTok (ks : List Str) (n : Nat) (ts : List Tok) :
    quiet ks n (ts.map upTok) = quiet ks n ts := by
  induction ts generalizing n with
  | nil => rfl
  | cons t r ih => simp [quiet, deeper_upTok, isKw_upTok, ih]

/-- The type of a column, as it is written. -/
theorem piece_type (d : Dialect) (coll : Str) (level : Bool) (c : Column)
    (h : ColumnOk d coll level c) :
    ∃ ty, Piece d (columnType d c) ty ∧ ty.map foldTok = (colOf d coll level c).type ∧
      flat 0 ty ∧ quiet stops 0 ty := by
  unfold columnType
  by_cases h1 : c.domainName ≠ []
  · have k := h.domain h1
    refine ⟨toks d c.domainName, ?_, by simp [colOf, h1], k.flat, k.quiet⟩
    rw [if_pos h1]
    exact Piece.lit_then d b!" " [] _ _ (by decide) (readsP_toks k.fragment)
  rw [if_neg h1]
  by_cases h2 : c.isEnum = true
  · have k := h.enum h2
    refine ⟨toks d c.columnType, ?_, by simp [colOf, h1, h2], k.flat, k.quiet⟩
    rw [if_pos h2]
    exact Piece.lit_then d b!" " [] _ _ (by decide) (readsP_toks k.fragment)
  rw [if_neg h2]
  obtain ⟨k1, k2, k3⟩ := h.type (by simpa using h1) (by simpa using h2)
  have hs : c.columnType.all (simpleChar d) := by
    simp only [List.all_eq_true] at k1 ⊢
    exact fun x hx => simpleChar_type d x (k1 x hx)
  rw [toks_simple d _ hs] at k2 k3
  by_cases h3 : computed d c
  · refine ⟨[], ?_, by simp [colOf, h1, h2, h3], rfl, rfl⟩
    have : (d = .sqlserver && c.generatedExpr ≠ []) = true := h3
    simp only [this, Bool.not_true, Bool.and_false]
    exact Piece.nil d
  · have h3' : (d = .sqlserver && c.generatedExpr ≠ []) = false := by
      simpa [computed] using h3
    refine ⟨(stoks c.columnType).map upTok, ?_, ?_, by rwa [flat_upTok], by rwa [quiet_upTok]⟩
    · by_cases h4 : c.columnType = []
      · simp [h4, opt, stoks, Piece.nil]
      · simp only [h3', Bool.not_false, Bool.and_true, decide_true, h4, ne_eq, not_false_eq_true,
          opt, if_true]
        rw [← stoks_upper]
        exact Piece.lit_then d b!" " [] _ _ (by decide)
          (readsP_simple d _ (simple_upper d _ hs))
    · simp [colOf, h1, h2, h3, toks_simple d _ hs, foldTok_upTok]

/-! ## Expressions -/

theorem closing_spec (n : Nat) (a i r : List Tok) (h : closing n a = some (i, r)) :
    a = i ++ .punct ')' :: r := by
  induction a generalizing n i with
  | nil => simp [closing] at h
  | cons t a ih =>
    rw [closing] at h
    split at h
    · rename_i h1; simp at h; obtain ⟨rfl, rfl⟩ := h; simp [h1.1]
    · simp only [Option.map_eq_some_iff] at h
      obtain ⟨⟨i', r'⟩, e1, e2⟩ := h
      simp at e2; obtain ⟨rfl, rfl⟩ := e2
      simp [ih _ _ e1]

theorem closing_bal (n m : Nat) (a i r : List Tok) (h : closing n a = some (i, r))
    (hb : bal (n + m) a) : bal n i := by
  induction a generalizing n i with
  | nil => simp [closing] at h
  | cons t a ih =>
    rw [closing] at h
    split at h
    · rename_i h1; simp at h; obtain ⟨rfl, rfl⟩ := h; simp [h1.2, bal]
    · rename_i h1
      simp only [Option.map_eq_some_iff] at h
      obtain ⟨⟨i', r'⟩, e1, e2⟩ := h
      simp at e2; obtain ⟨rfl, rfl⟩ := e2
      simp only [bal, Bool.and_eq_true] at hb ⊢
      rw [Nat.add_comm, deeper_add m n t h1, Nat.add_comm _ (deeper n t)] at hb
      refine ⟨⟨hb.1.1, ?_⟩, ih _ _ e1 hb.2⟩
      simp only [Bool.not_eq_true', Bool.and_eq_false_iff, decide_eq_false_iff_not]
      grind

theorem inBrackets_spec (a i r : List Tok) (h : inBrackets a = some (i, r)) (hb : bal 0 a) :
    a = .punct '(' :: (i ++ .punct ')' :: r) ∧ bal 0 i := by
  cases a with
  | nil => simp [inBrackets] at h
  | cons t a =>
    rw [inBrackets] at h
    split at h
    · rename_i h1
      subst h1
      refine ⟨by rw [← closing_spec 0 a i r h], closing_bal 0 1 a i r h ?_⟩
      simpa [bal, deeper] using hb
    · cases h

/-- The expression of a generated column, as it is written. -/
theorem readsP_wrapBrackets (d : Dialect) (s : Str) (h0 : s ≠ []) (h : ExprText d s) :
    ReadsP d (wrapBrackets s) (.punct '(' :: (exprToks d s ++ [.punct ')'])) ∧
      bal 0 (exprToks d s) := by
  unfold wrapBrackets
  rw [if_neg h0]
  have hb := h.brackets
  by_cases hw : wrappedInBrackets s = true
  · rw [if_pos hw]
    have hw' : s.head? = some '(' ∧ s.getLast? = some ')' := by
      simpa [wrappedInBrackets] using hw
    obtain ⟨i, hi⟩ := hb.1 hw'
    obtain ⟨e1, e2⟩ := inBrackets_spec _ _ _ hi h.bal
    have e3 : exprToks d s = i := by simp [exprToks, hi]
    rw [e3, ← e1]
    exact ⟨readsP_toks h.fragment, e2⟩
  · rw [if_neg hw]
    have e3 : exprToks d s = toks d s := by
      unfold exprToks
      split
      · rename_i i hi
        exfalso
        apply hw
        have := hb.2 ⟨i, hi⟩
        simp [wrappedInBrackets, this]
      · rfl
    rw [e3]
    refine ⟨?_, h.bal⟩
    exact (Piece.lit_then d b!"(" [.punct '('] _ _ (by decide) (readsP_toks h.fragment)).reads.piece
      (Piece.lit d b!")" [.punct ')'] (by decide))

theorem piece_generated (d : Dialect) (coll : Str) (level : Bool) (c : Column)
    (h : ColumnOk d coll level c) :
    Piece d (generated d c) (genToks d (colOf d coll level c).generated) := by
  unfold generated
  by_cases h0 : c.generatedExpr = []
  · simp [h0, opt, colOf, genToks, Piece.nil]
  obtain ⟨h1, _⟩ := readsP_wrapBrackets d _ h0 (h.generated h0)
  have hst := h.stored h0
  have hd := h.dialect
  simp only [h0, ne_eq, not_false_eq_true, decide_true, opt, if_true, colOf, if_false]
  cases d
  · have := (Piece.lit_then _ b!" GENERATED ALWAYS AS "
      [.word b!"GENERATED", .word b!"ALWAYS", .word b!"AS"] _ _ (by decide) h1).append
      (Piece.lit _ b!" STORED" [.word b!"STORED"] (by decide))
    simpa [genToks, hst] using this
  · have := (Piece.lit_then _ b!" GENERATED ALWAYS AS "
      [.word b!"GENERATED", .word b!"ALWAYS", .word b!"AS"] _ _ (by decide) h1).append
      (Piece.lit _ b!" STORED" [.word b!"STORED"] (by decide))
    simpa [genToks, hst] using this
  · have := (Piece.lit_then _ b!" AS " [.word b!"AS"] _ _ (by decide) h1).append
      (piece_optWords _ c.generatedExprStored b!" STORED" [b!"STORED"] (by decide))
    simpa [genToks, optWords, opt] using this
  · have := (Piece.lit_then _ b!" AS " [.word b!"AS"] _ _ (by decide) h1).append
      (piece_optWords _ c.generatedExprStored b!" PERSISTED" [b!"PERSISTED"] (by decide))
    simpa [genToks, optWords, opt] using this
  · exact absurd rfl hd.1
  · exact absurd rfl hd.2

/-! ## References -/

theorem piece_rule (d : Dialect) (kw : Str) (ev r : Str)
    (hk : IsGap kw [.word b!"ON", .word ev]) (h : (ruleOf r).isSome) :
    Piece d (rule kw r) (ruleToks ev (ruleD r)) := by
  have hl : ∀ x : Rule, x ≠ .noAction → ∀ s : Str, s.all plainTextChar = true →
      stoks s = ((ruleWords.lookup x).getD []).map Tok.word →
      Piece d (kw ++ s) (ruleToks ev x) := by
    intro x hx s h1 h2
    have := Piece.lit_then d kw _ s _ hk (readsP_lit d s h1)
    rw [h2] at this
    simpa [ruleToks, hx] using this
  unfold rule opt
  by_cases e0 : r = []
  · subst e0; exact Piece.nil d
  by_cases e1 : r = b!"NO ACTION"
  · subst e1; exact Piece.nil d
  have hc : decide (r ≠ [] ∧ r ≠ NO_ACTION) = true := by simp only [decide_eq_true_eq]; exact ⟨e0, e1⟩
  rw [if_pos hc]
  by_cases e2 : r = b!"RESTRICT"
  · subst e2; exact hl _ (by decide) _ (by decide) (by decide)
  by_cases e3 : r = b!"CASCADE"
  · subst e3; exact hl _ (by decide) _ (by decide) (by decide)
  by_cases e4 : r = b!"SET NULL"
  · subst e4; exact hl _ (by decide) _ (by decide) (by decide)
  by_cases e5 : r = b!"SET DEFAULT"
  · subst e5; exact hl _ (by decide) _ (by decide) (by decide)
  · exfalso
    simp [ruleOf, List.lookup, beq_eq_false_iff_ne.2 e0, beq_eq_false_iff_ne.2 e1,
      beq_eq_false_iff_ne.2 e2, beq_eq_false_iff_ne.2 e3, beq_eq_false_iff_ne.2 e4,
      beq_eq_false_iff_ne.2 e5] at h

theorem piece_deferrable (d : Dialect) (a b : Bool) :
    Piece d (deferrable d a b) (optWords (a && defers d) [b!"DEFERRABLE"] ++
      optWords (a && defers d && b) [b!"INITIALLY", b!"DEFERRED"]) := by
  unfold deferrable
  have e : (a && decide (d = .sqlite ∨ d = .postgres)) = (a && defers d) := by simp [defers]
  rw [e]
  cases a && defers d
  · exact Piece.nil d
  · exact (Piece.lit d b!" DEFERRABLE" [.word b!"DEFERRABLE"] (by decide)).append
      (piece_optWords d b b!" INITIALLY DEFERRED" [b!"INITIALLY", b!"DEFERRED"] (by decide))

theorem ruleOf_ruleD (r : Str) (h : (ruleOf r).isSome) : ruleOf r = some (ruleD r) := by
  unfold ruleD; cases e : ruleOf r <;> simp [e] at h ⊢

theorem piece_columnReferences (d : Dialect) (coll : Str) (level : Bool) (c : Column)
    (h : ColumnOk d coll level c) :
    Piece d (opt level (columnReferences d c))
      (((colOf d coll level c).ref.toList.flatMap (refToks d)) ++
        (optWords (colOf d coll level c).deferrable [b!"DEFERRABLE"] ++
        optWords (colOf d coll level c).initiallyDeferred [b!"INITIALLY", b!"DEFERRED"])) := by
  cases level
  · simp [opt, colOf, optWords, Piece.nil]
  unfold columnReferences
  by_cases hr : c.referencesTable ≠ [] ∧ c.referencesColumn ≠ []
  · have p1 : Piece d (b!" REFERENCES " ++
        (opt (decide (c.referencesSchema ≠ [] ∧ c.referencesSchema ≠ c.tableSchema))
          (quoteIdentifier d c.referencesSchema ++ b!".") ++
        quoteIdentifier d c.referencesTable))
        (.word b!"REFERENCES" :: qnameToks d (if c.referencesSchema = [] ∨
          c.referencesSchema = c.tableSchema then none else some c.referencesSchema,
            c.referencesTable)) := by
      apply Piece.lit_then d b!" REFERENCES " [.word b!"REFERENCES"] _ _ (by decide)
      by_cases hs : c.referencesSchema ≠ [] ∧ c.referencesSchema ≠ c.tableSchema
      · have hs' : ¬ (c.referencesSchema = [] ∨ c.referencesSchema = c.tableSchema) := by grind
        have := ((readsP_ident d c.referencesSchema).lit (t := b!".") (us := [.punct '.'])
          (by decide)).append_p (readsP_ident d c.referencesTable)
        simpa [opt, hs, hs', qnameToks] using this
      · have hs' : c.referencesSchema = [] ∨ c.referencesSchema = c.tableSchema := by grind
        have := readsP_ident d c.referencesTable
        simpa [opt, hs, hs', qnameToks] using this
    have p2 := ((((p1.append (Piece.lit_then d b!" (" [.punct '('] _ _ (by decide)
      (readsP_ident d c.referencesColumn))).append
      (Piece.lit d b!")" [.punct ')'] (by decide))).append
      (piece_rule d b!" ON UPDATE " b!"UPDATE" c.updateRule (by decide) h.updateRule)).append
      (piece_rule d b!" ON DELETE " b!"DELETE" c.deleteRule (by decide) h.deleteRule)).append
      (piece_deferrable d c.isDeferrable c.isInitiallyDeferred)
    simpa [opt, hr, colOf, refOf, refToks, colToks, commaSep, List.append_assoc] using p2
  · have : decide (c.referencesTable ≠ [] ∧ c.referencesColumn ≠ []) = false := by simpa using hr
    rw [this]
    simp only [colOf, refOf, hr, if_false, Option.isSome_none, Bool.and_false, Bool.false_and]
    exact Piece.nil d

/-! ## The whole definition -/

theorem readsP_quoted (s : Str) (h : ¬ HasInnerPair '"' s) :
    ReadsP .postgres ('"' :: (escapeQuote '"' s ++ ['"'])) [.quoted s] := by
  intro rest hr
  have hq : rest.head? ≠ some '"' := by
    have := hr.1
    cases rest with
    | nil => simp
    | cons c r => simp [endsToken] at this; simp [this.2]
  have := readQuoted_escapeQuote '"' s rest hq
  rw [(collapse_eq_iff '"' s).2 h] at this
  have e := lex_quoted .postgres (escapeQuote '"' s ++ '"' :: rest) s rest this
  simpa [openQ] using e

theorem piece_collation (d : Dialect) (coll : Str) (level : Bool) (c : Column)
    (h : ColumnOk d coll level c) :
    Piece d (collation d coll c)
      ((colOf d coll level c).collation.toList.flatMap fun t => [.word b!"COLLATE", t]) := by
  unfold collation
  by_cases h0 : c.collationName = [] ∨ c.collationName = coll
  · have : decide (c.collationName ≠ [] ∧ c.collationName ≠ coll) = false := by
      simp only [decide_eq_false_iff_not]; grind
    rw [this]
    simp [opt, colOf, h0, Piece.nil]
  · have : decide (c.collationName ≠ [] ∧ c.collationName ≠ coll) = true := by
      simp only [decide_eq_true_eq]; grind
    rw [this]
    simp only [opt, if_true, colOf, h0, if_false, Option.toList_some, List.flatMap_cons,
      List.flatMap_nil, List.append_nil]
    have hc := h.collation
    by_cases hd : d = .postgres
    · subst hd
      simp only [if_true] at hc ⊢
      have := Piece.lit_then .postgres b!" COLLATE " [.word b!"COLLATE"] _ _ (by decide)
        (readsP_quoted c.collationName hc)
      simpa using this
    · simp only [hd, if_false] at hc ⊢
      exact Piece.lit_then d b!" COLLATE " [.word b!"COLLATE"] _ _ (by decide)
        (reads_word d c.collationName (by grind) hc).readsP

theorem piece_autoincrement (d : Dialect) (c : Column) :
    Piece d (autoincrement d c)
      (optWords (c.isAutoincrement && (d = .sqlite || d = .mysql)) [autoWord d]) := by
  unfold autoincrement
  cases d
  · simpa [autoWord] using piece_optWords _ c.isAutoincrement b!" AUTOINCREMENT" [b!"AUTOINCREMENT"]
      (by decide)
  · simp [optWords, Piece.nil]
  · simpa [autoWord] using piece_optWords _ c.isAutoincrement b!" AUTO_INCREMENT"
      [b!"AUTO_INCREMENT"] (by decide)
  all_goals simp [optWords, Piece.nil]

theorem piece_columnBody (d : Dialect) (coll : Str) (level : Bool) (c : Column)
    (h : ColumnOk d coll level c) :
    ∃ ty, Piece d (columnBody d coll c level) (ty ++ colTail d (colOf d coll level c)) ∧
      (colOf d coll level c).Ok d ty := by
  obtain ⟨ty, p0, t1, t2, t3⟩ := piece_type d coll level c h
  refine ⟨ty, ?_, ?_⟩
  · have p1 := piece_optWords d (colOf d coll level c).primary b!" PRIMARY KEY"
      [b!"PRIMARY", b!"KEY"] (by decide)
    have p2 := piece_autoincrement d c
    have p3 := piece_optWords d (colOf d coll level c).notNull b!" NOT NULL" [b!"NOT", b!"NULL"]
      (by decide)
    have p4 := piece_optWords d (colOf d coll level c).unique b!" UNIQUE" [b!"UNIQUE"] (by decide)
    have p5 := piece_clause (c.columnIdentity ≠ [] && (d = .postgres || d = .sqlserver)) b!" " []
      (t := c.columnIdentity) (by decide) (fun hb => by
        simp only [Bool.and_eq_true, decide_eq_true_eq, Bool.or_eq_true] at hb
        exact (h.identity hb.1 hb.2).2)
    have p6 := piece_clause (decide (c.columnDefault ≠ [])) b!" DEFAULT " [.word b!"DEFAULT"]
      (by decide) (fun _ => h.default.fragment)
    have p7 := piece_optWords d (colOf d coll level c).onUpdateNow b!" ON UPDATE CURRENT_TIMESTAMP"
      [b!"ON", b!"UPDATE", b!"CURRENT_TIMESTAMP"] (by decide)
    have p8 := piece_collation d coll level c h
    have p9 := piece_generated d coll level c h
    have p10 := piece_columnReferences d coll level c h
    have p := (((((((((p0.append p1).append p2).append p3).append p4).append p5).append p6).append
      p7).append p8).append p9).append p10
    have e5 : (if (decide (c.columnIdentity ≠ []) && (decide (d = .postgres) ||
        decide (d = .sqlserver))) = true then [] ++ toks d c.columnIdentity else []) =
        (colOf d coll level c).identity.getD [] := by
      unfold colOf
      split <;> simp_all
    have e6 : (if decide (c.columnDefault ≠ []) = true then
        [Tok.word b!"DEFAULT"] ++ toks d c.columnDefault else []) =
        ((colOf d coll level c).default.toList.flatMap fun ts => .word b!"DEFAULT" :: ts) := by
      unfold colOf
      by_cases hd : c.columnDefault = [] <;> simp [hd]
    rw [e5, e6] at p
    unfold columnBody
    unfold colTail
    simp only [List.append_assoc] at p ⊢
    exact p
  · refine ⟨h.name, t1, t2, t3, ?_, ?_, ?_, ?_, ?_, ?_, ?_, ?_, h.allowed⟩
    · intro i hi
      by_cases hb : (c.columnIdentity ≠ [] && (d = .postgres || d = .sqlserver)) = true
      · simp only [colOf, hb, if_true, Option.mem_def, Option.some.injEq] at hi
        subst hi
        simp only [Bool.and_eq_true, decide_eq_true_eq, Bool.or_eq_true] at hb
        exact (h.identity hb.1 hb.2).1
      · simp only [colOf] at hi
        rw [if_neg hb] at hi
        cases hi
    · intro x hx
      by_cases hd : c.columnDefault = []
      · simp [colOf, hd] at hx
      · simp [colOf, hd] at hx; subst hx; exact h.default.flat
    · intro x hx
      by_cases hd : c.columnDefault = []
      · simp [colOf, hd] at hx
      · simp [colOf, hd] at hx; subst hx; exact h.default.quiet
    · intro p hp
      by_cases hg : c.generatedExpr = []
      · simp [colOf, hg] at hp
      · simp [colOf, hg] at hp; subst hp
        exact (readsP_wrapBrackets d _ hg (h.generated hg)).2
    · intro t ht p
      simp only [colOf] at ht
      split at ht
      · cases ht
      · simp at ht; subst ht; split <;> simp
    · intro x hx
      simp only [colOf] at hx
      split at hx
      · unfold refOf at hx
        split at hx
        · rename_i hr
          simp at hx; subst hx
          refine ⟨?_, h.refTable hr.1, rfl, by simp, by simpa using h.refColumn hr.2⟩
          intro s hs
          dsimp only at hs
          split at hs
          · cases hs
          · rename_i hn
            simp at hs; subst hs
            exact h.refSchema (by grind)
        · cases hx
      · cases hx
    · intro hn
      simp only [colOf] at hn ⊢
      cases level <;> simp_all
    · intro hn
      simp only [colOf] at hn ⊢
      cases level <;> simp_all

/-- C66: a column definition is read back as the column, with all its attributes. -/
theorem columnDef_reads_back (d : Dialect) (coll : Str) (level : Bool) (c : Column)
    (h : ColumnOk d coll level c) :
    (lex d (columnDef d coll c level)).bind (readCol d (keywords d)) =
      some (colOf d coll level c) := by
  obtain ⟨ty, p, ho⟩ := piece_columnBody d coll level c h
  have := lex_of_readsP ((readsP_ident d c.columnName).piece p)
  rw [columnDef, this]
  exact readCol_eq d _ ty ho

end Sqddl.Render
