import Verif.Lemmas.DdlCon

/-!
# Reading indexes
-/

namespace DdlText
open SqlSpec Go Sqddl
open WipeSpec (kws readName)

/-- An unquoted name is not a keyword. -/
theorem isKw_ident (d : Dialect) (k s : Str) (hk : toLower k ∈ keywords d) :
    isKw k (identTok d s) = false := by
  unfold identTok
  by_cases h : needsQuoting d s = true
  · simp [h, isKw]
  · simp only [Bool.not_eq_true] at h
    obtain ⟨_, _, _, h4⟩ := unquoted_facts d s h
    simp only [h, Bool.false_eq_true, if_false, isKw, beq_eq_false_iff_ne, ne_eq]
    intro e
    exact h4 (e ▸ hk)

theorem kws_ident (d : Dialect) (k s : Str) (ks : List Str) (r : List Tok)
    (hk : toLower k ∈ keywords d) : kws (k :: ks) (identTok d s :: r) = none := by
  simp [kws, isKw_ident d k s hk]

/-- The tokens of a column of an index. -/
def idxColToks (d : Dialect) : IdxCol → List Tok
  | .column n desc => identTok d n :: optWords desc [b!"DESC"]
  | .expr e desc => .punct '(' :: (e ++ .punct ')' :: optWords desc [b!"DESC"])

/-- The conditions under which a column of an index is read back. -/
def IdxColOk (d : Dialect) : IdxCol → Prop
  | .column n _ => PlainName d n
  | .expr e _ => bal 0 e

theorem optKw_end (b : Bool) (w : Str) : optKw [w] (optWords b [w]) = (b, []) := by
  have := optKw_eq (hs := []) w [] b [] (headIn_nil _) rfl
  simpa [optWords] using this

theorem readIdxCol_eq (d : Dialect) (c : IdxCol) (h : IdxColOk d c) :
    readIdxCol d (keywords d) (idxColToks d c) = some c := by
  unfold readIdxCol
  cases c with
  | column n desc =>
    have e : inBrackets (idxColToks d (.column n desc)) = none := by
      simp [idxColToks, inBrackets, identTok_not_punct]
    rw [e]
    simp [idxColToks, nameOf_identTok d n h, optKw_end]
  | expr x desc =>
    have e : inBrackets (idxColToks d (.expr x desc)) = some (x, optWords desc [b!"DESC"]) :=
      inBrackets_eq x _ h
    rw [e]
    simp [optKw_end]

theorem flat_idxCol (d : Dialect) (c : IdxCol) (h : IdxColOk d c) : flat 0 (idxColToks d c) := by
  cases c with
  | column n desc => exact flat_append0 [identTok d n] _ (flat_ident d n) (flat_optWords _ _)
  | expr x desc =>
    unfold idxColToks
    rw [flat_brackets x _ h]
    exact flat_optWords _ _

/-- The tokens of the method. -/
def usingToks (b : Bool) (m : Option Str) : List Tok :=
  if b then m.toList.flatMap fun x => [.word b!"USING", .word x] else []

/-- The tokens of an index; `pw`: there is a WHERE. -/
def idxToks (d : Dialect) (x : Idx) (pw : Bool) : List Tok :=
  (if x.unique then [.word b!"UNIQUE"] else x.kind.toList.map Tok.word) ++
  (.word b!"INDEX" :: (optWords x.concurrently [b!"CONCURRENTLY"] ++
  (identTok d x.name :: (usingToks (d = .mysql) x.method ++
  ((x.table.toList.flatMap fun n => .word b!"ON" :: qnameToks d n) ++
  (usingToks (d = .postgres) x.method ++
  (.punct '(' :: (commaSep (x.cols.map (idxColToks d)) ++ .punct ')' ::
  ((if x.incl = [] then [] else .word b!"INCLUDE" :: groupToks d x.incl) ++
  (if pw then .word b!"WHERE" :: x.pred else []))))))))))

/-- The conditions under which an index is read back. -/
structure Idx.Ok (d : Dialect) (x : Idx) (pw : Bool) : Prop where
  kind : ∀ k ∈ x.kind, x.unique = false ∧ (toLower k = b!"fulltext" ∨ toLower k = b!"spatial")
  conc : x.concurrently = true → d = .postgres
  dialect : d ≠ .oracle ∧ d ≠ .other
  name : PlainName d x.name
  schema : ∀ n ∈ x.table, ∀ s ∈ n.1, PlainName d s
  table : ∀ n ∈ x.table, PlainName d n.2
  method : ∀ m ∈ x.method, d = .mysql ∨ d = .postgres
  inline : x.table = none → d = .mysql
  some : x.cols ≠ []
  cols : ∀ c ∈ x.cols, IdxColOk d c
  incl : ∀ c ∈ x.incl, PlainName d c
  pred : pw = false → x.pred = []

/-- Kinds and methods are compared without regard to case. -/
def Idx.fold (x : Idx) : Idx := { x with kind := x.kind.map toLower, method := x.method.map toLower }

theorem kws_fold (k w : Str) (ks : List Str) (r : List Tok) (h : toLower w = toLower k) :
    kws (k :: ks) (.word w :: r) = kws ks r := by
  simp [kws, isKw, h]

theorem kws_diff (k w : Str) (ks : List Str) (r : List Tok) (h : toLower w ≠ toLower k) :
    kws (k :: ks) (.word w :: r) = none := by
  simp [kws, isKw, h]

theorem readIdxHead_eq (u : Bool) (k : Option Str) (r : List Tok)
    (hk : ∀ x ∈ k, u = false ∧ (toLower x = b!"fulltext" ∨ toLower x = b!"spatial")) :
    readIdxHead ((if u then [.word b!"UNIQUE"] else k.toList.map Tok.word) ++ (.word b!"INDEX" :: r)) =
      some (u, k.map toLower, r) := by
  unfold readIdxHead
  cases u with
  | true =>
    cases k with
    | none =>
      have := kws_self [b!"UNIQUE", b!"INDEX"] r
      simp only [List.map_cons, List.map_nil, List.cons_append, List.nil_append] at this
      simp [this]
    | some x => have := (hk x rfl).1; cases this
  | false =>
    cases k with
    | none =>
      have e1 : kws [b!"UNIQUE", b!"INDEX"] (.word b!"INDEX" :: r) = none :=
        kws_diff _ _ _ _ (by decide)
      have e2 : kws [b!"FULLTEXT", b!"INDEX"] (.word b!"INDEX" :: r) = none :=
        kws_diff _ _ _ _ (by decide)
      have e3 : kws [b!"SPATIAL", b!"INDEX"] (.word b!"INDEX" :: r) = none :=
        kws_diff _ _ _ _ (by decide)
      have e4 : kws [b!"INDEX"] (.word b!"INDEX" :: r) = some r := kws_self [b!"INDEX"] r
      simp [e1, e2, e3, e4]
    | some x =>
      have e4 : kws [b!"INDEX"] (.word b!"INDEX" :: r) = some r := kws_self [b!"INDEX"] r
      rcases (hk x rfl).2 with h | h
      · have e1 : kws [b!"UNIQUE", b!"INDEX"] (.word x :: .word b!"INDEX" :: r) = none :=
          kws_diff _ _ _ _ (by rw [h]; decide)
        have e2 : kws [b!"FULLTEXT", b!"INDEX"] (.word x :: .word b!"INDEX" :: r) = some r := by
          rw [kws_fold _ _ _ _ (by rw [h]; decide), e4]
        simp [e1, e2, h]
      · have e1 : kws [b!"UNIQUE", b!"INDEX"] (.word x :: .word b!"INDEX" :: r) = none :=
          kws_diff _ _ _ _ (by rw [h]; decide)
        have e2 : kws [b!"FULLTEXT", b!"INDEX"] (.word x :: .word b!"INDEX" :: r) = none :=
          kws_diff _ _ _ _ (by rw [h]; decide)
        have e3 : kws [b!"SPATIAL", b!"INDEX"] (.word x :: .word b!"INDEX" :: r) = some r := by
          rw [kws_fold _ _ _ _ (by rw [h]; decide), e4]
        simp [e1, e2, e3, h]

theorem readIdx_eq (d : Dialect) (x : Idx) (pw : Bool) (h : x.Ok d pw) :
    readIdx d (keywords d) x.table.isNone (idxToks d x pw) = some x.fold := by
  obtain ⟨u, k, n, conc, table, m, cols, incl, pred⟩ := x
  have hflat : ∀ y ∈ cols.map (idxColToks d), flat 0 y := by
    intro y hy
    simp only [List.mem_map] at hy
    obtain ⟨z, hz, rfl⟩ := hy
    exact flat_idxCol d z (h.cols z hz)
  have s1 := readIdxHead_eq u k (optWords conc [b!"CONCURRENTLY"] ++
    (identTok d n :: (usingToks (d = .mysql) m ++
    ((table.toList.flatMap fun n => .word b!"ON" :: qnameToks d n) ++
    (usingToks (d = .postgres) m ++
    (.punct '(' :: (commaSep (cols.map (idxColToks d)) ++ .punct ')' ::
    ((if incl = [] then [] else .word b!"INCLUDE" :: groupToks d incl) ++
    (if pw then .word b!"WHERE" :: pred else []))))))))) h.kind
  -- what follows the columns
  have s7 : ∀ r, HeadIn [b!"WHERE"] r →
      readInclude d (keywords d) ((if incl = [] then [] else .word b!"INCLUDE" :: groupToks d incl) ++ r)
        = some (incl, r) := by
    intro r hr
    unfold readInclude
    by_cases hi : incl = []
    · have := kws_none hr b!"INCLUDE" [] (by decide)
      simp [hi, this]
    · have e := kws_self [b!"INCLUDE"] (groupToks d incl ++ r)
      simp only [List.map_cons, List.map_nil, List.cons_append, List.nil_append] at e
      simp only [hi, if_false, List.cons_append, e]
      exact readCols_group d incl hi h.incl r
  have hwh : HeadIn [b!"WHERE"] (if pw then .word b!"WHERE" :: pred else []) :=
    headIn_ite pw _ _ (by simp)
  have s8 : readPred (if pw then .word b!"WHERE" :: pred else []) = some pred := by
    unfold readPred
    cases pw with
    | false =>
      have := h.pred rfl
      simp at this
      simp [kws, this]
    | true =>
      have e := kws_self [b!"WHERE"] pred
      simp only [List.map_cons, List.map_nil, List.cons_append, List.nil_append] at e
      simp [e]
  have s6 : ((splitTop 0 (commaSep (cols.map (idxColToks d)))).mapM (readIdxCol d (keywords d))) =
      some cols := by
    rw [splitTop_commaSep _ (by simpa using h.some) hflat,
      mapM_map_some (k := id) _ _ cols fun c hc => readIdxCol_eq d c (h.cols c hc)]
    simp
  have s5 := inBrackets_eq (commaSep (cols.map (idxColToks d)))
    ((if incl = [] then [] else .word b!"INCLUDE" :: groupToks d incl) ++
    (if pw then .word b!"WHERE" :: pred else [])) (bal_commaSep _ hflat)
  -- what precedes them
  have s4 : ∀ r : List Tok, r.head? = some (.punct '(') →
      (if d = .postgres then readUsing (usingToks (d = .postgres) m ++ r)
        else (none, usingToks (d = .postgres) m ++ r)) =
      (if d = .postgres then m.map toLower else none, r) := by
    intro r hr
    by_cases hd : d = .postgres
    · simp only [hd, if_true, usingToks, decide_true]
      exact readUsing_eq (hs := []) m r (Or.inr hr) rfl
    · simp [hd, usingToks]
  have s3 : ∀ r : List Tok, r.head? ≠ some (.punct '.') →
      readIdxTable d (keywords d) table.isNone
        ((table.toList.flatMap fun n => .word b!"ON" :: qnameToks d n) ++ r) = some (table, r) := by
    intro r hr
    unfold readIdxTable
    cases table with
    | none => simp
    | some t =>
      have e := kws_self [b!"ON"] (qnameToks d t ++ r)
      simp only [List.map_cons, List.map_nil, List.cons_append, List.nil_append] at e
      simp only [Option.isNone_some, Bool.false_eq_true, if_false, Option.toList_some,
        List.flatMap_cons, List.flatMap_nil, List.append_nil, List.cons_append, e, Option.bind_some]
      rw [readName_qname d t (h.schema t rfl) (h.table t rfl) r hr]
      rfl
  have s2 : ∀ r : List Tok, (HeadIn [b!"ON"] r ∨ r.head? = some (.punct '(')) →
      (if d = .mysql then readUsing (usingToks (d = .mysql) m ++ r)
        else (none, usingToks (d = .mysql) m ++ r)) =
      (if d = .mysql then m.map toLower else none, r) := by
    intro r hr
    by_cases hd : d = .mysql
    · simp only [hd, if_true, usingToks, decide_true]
      exact readUsing_eq m r hr (by decide)
    · simp [hd, usingToks]
  have sc : ∀ r, (if d = .postgres then
      optKw [b!"CONCURRENTLY"] (optWords conc [b!"CONCURRENTLY"] ++ (identTok d n :: r))
      else (false, optWords conc [b!"CONCURRENTLY"] ++ (identTok d n :: r))) =
      (conc, identTok d n :: r) := by
    intro r
    by_cases hd : d = .postgres
    · subst hd
      rw [if_pos rfl]
      cases conc with
      | false =>
        have := kws_ident .postgres b!"CONCURRENTLY" n [] r (by decide +kernel)
        simp [optWords, optKw, this]
      | true =>
        have e := kws_self [b!"CONCURRENTLY"] (identTok .postgres n :: r)
        simp only [List.map_cons, List.map_nil, List.cons_append, List.nil_append] at e
        simp [optWords, optKw, e]
    · have : conc = false := by
        cases hc : conc with
        | false => rfl
        | true => exact absurd (h.conc hc) hd
      simp [hd, this, optWords]
  unfold readIdx idxToks
  simp only [s1, Option.bind_some]
  rw [sc]
  simp only [nameOf_identTok d n h.name, Option.bind_some]
  have hus : ∀ (b : Bool) (r : List Tok), r.head? = some (.punct '(') →
      (usingToks b m ++ r).head? ≠ some (.punct '.') := by
    intro b r hr
    unfold usingToks
    cases b
    · simp [hr]
    · cases m <;> simp [hr]
  rw [s2 _ (by
    cases table with
    | some t => exact Or.inl (headIn_word _ _ _ (by simp))
    | none =>
      have := h.inline rfl
      right; subst this; rfl)]
  simp only
  rw [s3 _ (hus _ _ rfl)]
  simp only [Option.bind_some]
  rw [s4 _ rfl]
  simp only [s5, Option.bind_some, s6, s7 _ hwh, s8, Option.map_some, Idx.fold]
  cases m with
  | none => simp
  | some w =>
    rcases h.method w rfl with rfl | rfl <;> simp

end DdlText
