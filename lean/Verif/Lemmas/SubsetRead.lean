import Verif.Lemmas.SubsetText

/-!
# The tokens of a query are read as the query
-/

namespace SelectSpec
open Go SqlSpec DdlText Sqddl Sqddl.Subset
open WipeSpec (kws readName)

theorem many_eq {α : Type} {item : List Tok → Option (α × List Tok)} {sep : List Tok → Option (List Tok)}
    {us : List Tok} {Ok : List Tok → Prop} (g : α → List Tok) (hu : ∀ r, Ok (us ++ r))
    (hsep : ∀ r, sep (us ++ r) = some r) (rest : List Tok) (hok : Ok rest) (hstop : sep rest = none)
    (xs : List α) (h0 : xs ≠ []) (hx : ∀ x ∈ xs, ∀ r, Ok r → item (g x ++ r) = some (x, r)) (n : Nat)
    (hn : xs.length ≤ n) : many item sep n (sepBy us (xs.map g) ++ rest) = some (xs, rest) := by
  induction xs generalizing n with
  | nil => exact absurd rfl h0
  | cons x xs ih =>
    obtain ⟨n, rfl⟩ : ∃ m, n = m + 1 := ⟨n - 1, by simp at hn; omega⟩
    cases xs with
    | nil =>
      simp only [List.map_cons, List.map_nil, sepBy, many, hx x (by simp) rest hok, Option.bind_some, hstop]
    | cons y ys =>
      have ih := ih (by simp) (fun z hz => hx z (by simp [hz])) n (by simpa using hn)
      have e : sepBy us ((x :: y :: ys).map g) ++ rest = g x ++ (us ++ (sepBy us ((y :: ys).map g) ++ rest)) := by
        simp [sepBy, List.append_assoc]
      rw [e, many, hx x (by simp) _ (hu _), Option.bind_some]
      dsimp only
      rw [hsep]
      dsimp only
      rw [ih]
      rfl

theorem sepBy_length (us : List Tok) (xs : List (List Tok)) (h : ∀ x ∈ xs, x ≠ []) :
    xs.length ≤ (sepBy us xs).length := by
  induction xs with
  | nil => simp
  | cons x xs ih =>
    have hx : 0 < x.length := List.length_pos_iff.2 (h x (by simp))
    cases xs with
    | nil => exact hx
    | cons y ys =>
      have := ih fun z hz => h z (by simp [hz])
      simp [sepBy] at this ⊢
      omega

theorem mark_self (c : Char) (r : List Tok) : mark c ([.punct c] ++ r) = some r := by simp [mark]

theorem ident_eq (d : Dialect) (s : Str) (h : PlainName d s) (r : List Tok) :
    ident d (keywords d) (identTok d s :: r) = some (s, r) := by
  simp [ident, nameOf_identTok d s h]

/-- A name that can be written. -/
structure NameOk (d : Dialect) (n : Name) : Prop where
  schema : ∀ s ∈ n.1, PlainName d s
  name : PlainName d n.2

structure RefOk (d : Dialect) (r : Ref) : Prop where
  item : NameOk d r.item
  column : PlainName d r.column

/-- No dot follows. -/
def NoDot (r : List Tok) : Prop := mark '.' r = none

theorem readRef_eq (d : Dialect) (r : Ref) (h : RefOk d r) (rest : List Tok) (hr : NoDot rest) :
    readRef d (keywords d) (refToks d r ++ rest) = some (r, rest) := by
  obtain ⟨⟨o, n⟩, c⟩ := r
  have hn := h.item.name
  have hc := h.column
  cases o with
  | none =>
    simp only [refToks, qnameToks, Option.toList_none, List.flatMap_nil, List.nil_append, List.cons_append, readRef]
    rw [ident_eq d n hn, Option.bind_some]
    dsimp only
    rw [show mark '.' (.punct '.' :: identTok d c :: rest) = some (identTok d c :: rest) from mark_self '.' _,
      Option.bind_some, ident_eq d c hc, Option.bind_some]
    dsimp only
    rw [hr]
  | some s =>
    have hs := h.item.schema s rfl
    simp only [refToks, qnameToks, Option.toList_some, List.flatMap_cons, List.flatMap_nil, List.append_nil, List.cons_append, List.nil_append, readRef]
    rw [ident_eq d s hs, Option.bind_some]
    dsimp only
    rw [show ∀ r, mark '.' (.punct '.' :: r) = some r from mark_self '.',
      Option.bind_some, ident_eq d n hn, Option.bind_some]
    dsimp only
    rw [show ∀ r, mark '.' (.punct '.' :: r) = some r from mark_self '.']
    dsimp only
    rw [ident_eq d c hc]
    rfl

theorem noDot_word (w : Str) (r : List Tok) : NoDot (.word w :: r) := by simp [NoDot, mark]

theorem noDot_punct (c : Char) (hc : c ≠ '.') (r : List Tok) : NoDot (.punct c :: r) := by simp [NoDot, mark, hc]

theorem readEquation_eq (d : Dialect) (e : Ref × Ref) (h : RefOk d e.1 ∧ RefOk d e.2) (rest : List Tok)
    (hr : NoDot rest) : readEquation d (keywords d) (eqToks d e ++ rest) = some (e, rest) := by
  unfold readEquation eqToks
  rw [List.append_assoc, List.cons_append, readRef_eq d e.1 h.1 _ (noDot_punct '=' (by decide) _), Option.bind_some]
  dsimp only
  rw [show ∀ r, mark '=' (.punct '=' :: r) = some r from mark_self '=', Option.bind_some, readRef_eq d e.2 h.2 _ hr]
  rfl

theorem refToks_ne (d : Dialect) (r : Ref) : refToks d r ≠ [] := by simp [refToks]

theorem eqToks_ne (d : Dialect) (e : Ref × Ref) : eqToks d e ≠ [] := by simp [eqToks]

/-- No equation is continued. -/
def NoAnd (r : List Tok) : Prop := NoDot r ∧ kws [b!"AND"] r = none

structure JoinOk (d : Dialect) (j : JoinItem) : Prop where
  item : NameOk d j.item
  some : j.on ≠ []
  on : ∀ e ∈ j.on, RefOk d e.1 ∧ RefOk d e.2

theorem kws_one (k : Str) (r : List Tok) : kws [k] (.word k :: r) = some r := kws_self [k] r

theorem dot_head {r : List Tok} (h : NoDot r) : r.head? ≠ some (.punct '.') := by
  intro e
  cases r with
  | nil => cases e
  | cons t r =>
    cases e
    simp [NoDot, mark] at h

theorem readJoin_eq (d : Dialect) (j : JoinItem) (h : JoinOk d j) (rest : List Tok) (hr : NoAnd rest) :
    readJoin d (keywords d) (joinToks d j ++ rest) = some (j, rest) := by
  unfold readJoin joinToks
  rw [List.append_assoc, readName_qname d j.item h.item.schema h.item.name _ (by simp), Option.bind_some]
  dsimp only
  rw [List.cons_append, kws_one, Option.bind_some,
    many_eq (us := [.word b!"AND"]) (Ok := NoDot) (eqToks d) (fun r => noDot_word _ _) (fun r => kws_one _ r) rest hr.1
      hr.2 j.on h.some (fun e he r hr => readEquation_eq d e (h.on e he) r hr)]
  · rfl
  · have := sepBy_length [.word b!"AND"] (j.on.map (eqToks d)) (fun x hx => by
      obtain ⟨e, _, rfl⟩ := List.mem_map.1 hx
      exact eqToks_ne d e)
    simp at this ⊢
    omega

/-- Nothing is joined. -/
def NoJoin (r : List Tok) : Prop := NoAnd r ∧ kws [b!"JOIN"] r = none

structure SelOk (d : Dialect) (s : Sel) : Prop where
  some : s.columns ≠ []
  columns : ∀ r ∈ s.columns, RefOk d r
  first : NameOk d s.first
  joins : ∀ j ∈ s.joins, JoinOk d j

theorem joins_sepBy (d : Dialect) (j : JoinItem) (js : List JoinItem) :
    ((j :: js).flatMap fun j => .word b!"JOIN" :: joinToks d j) =
      .word b!"JOIN" :: sepBy [.word b!"JOIN"] ((j :: js).map (joinToks d)) := by
  rw [List.map_cons, sepBy_flatMap, List.flatMap_cons, List.flatMap_map]
  rfl

theorem joinToks_ne (d : Dialect) (j : JoinItem) : joinToks d j ≠ [] := by simp [joinToks]

theorem readSel_eq (d : Dialect) (s : Sel) (h : SelOk d s) (rest : List Tok) (hr : NoJoin rest) :
    readSel d (keywords d) (selToks d s ++ rest) = some (s, rest) := by
  obtain ⟨cols, first, js⟩ := s
  unfold readSel selToks
  dsimp only
  have hl := sepBy_length [.punct ','] (cols.map (refToks d)) (by simp [refToks_ne])
  rw [List.length_map] at hl
  rw [List.append_assoc, List.cons_append, List.append_assoc,
    many_eq (us := [.punct ',']) (Ok := NoDot) (refToks d) (fun r => noDot_punct ',' (by decide) r)
      (fun r => mark_self ',' r) _ (noDot_word _ _) (by simp [mark]) cols h.some
      (fun x hx r hr => readRef_eq d x (h.columns x hx) r hr) _ (by simp; omega), Option.bind_some]
  dsimp only
  rw [kws_one, Option.bind_some]
  cases js with
  | nil =>
    rw [List.flatMap_nil, List.nil_append, readName_qname d first h.first.schema h.first.name _ (dot_head hr.1.1),
      Option.bind_some]
    dsimp only
    rw [hr.2]
  | cons j js =>
    rw [joins_sepBy, readName_qname d first h.first.schema h.first.name _ (by simp), Option.bind_some]
    dsimp only
    rw [List.cons_append, kws_one]
    dsimp only
    have hl := sepBy_length [.word b!"JOIN"] ((j :: js).map (joinToks d)) (by simp [joinToks_ne])
    rw [List.length_map] at hl
    rw [many_eq (us := [.word b!"JOIN"]) (Ok := NoAnd) (joinToks d) (fun r => ⟨noDot_word _ _, by simp [kws, isKw]; decide⟩)
      (fun r => kws_one _ r) rest hr.1 hr.2 (j :: js) (by simp) (fun x hx r hr => readJoin_eq d x (h.joins x hx) r hr)
      _ (by simp at hl ⊢; omega)]
    rfl

/-! ## Brackets -/

theorem bal_sepBy (us : List Tok) (hu : bal 0 us = true) (xs : List (List Tok)) (h : ∀ x ∈ xs, bal 0 x = true) :
    bal 0 (sepBy us xs) = true := by
  induction xs with
  | nil => rfl
  | cons x xs ih =>
    cases xs with
    | nil => exact h x (by simp)
    | cons y ys =>
      rw [sepBy]
      exact bal_append0 _ _ (h x (by simp)) (bal_append0 _ _ hu (ih fun z hz => h z (by simp [hz])))

theorem bal_cons_word (w : Str) (ts : List Tok) (h : bal 0 ts = true) : bal 0 (.word w :: ts) = true := by
  simp [bal, deeper, h]

theorem bal_qname (d : Dialect) (n : Name) : bal 0 (qnameToks d n) = true := flat_bal 0 _ (flat_qname d n)

theorem bal_ident (d : Dialect) (c : Str) : bal 0 [identTok d c] = true := flat_bal 0 _ (flat_ident d c)

theorem bal_ref (d : Dialect) (r : Ref) : bal 0 (refToks d r) = true :=
  bal_append0 _ _ (bal_qname d _) (bal_append0 [.punct '.'] _ (by decide) (bal_ident d _))

theorem bal_eq (d : Dialect) (e : Ref × Ref) : bal 0 (eqToks d e) = true :=
  bal_append0 _ _ (bal_ref d _) (bal_append0 [.punct '='] _ (by decide) (bal_ref d _))

theorem bal_join (d : Dialect) (j : JoinItem) : bal 0 (joinToks d j) = true := by
  refine bal_append0 _ _ (bal_qname d _) (bal_cons_word _ _ (bal_sepBy _ (by decide) _ ?_))
  intro x hx
  obtain ⟨e, _, rfl⟩ := List.mem_map.1 hx
  exact bal_eq d e

theorem bal_sel (d : Dialect) (s : Sel) : bal 0 (selToks d s) = true := by
  refine bal_append0 _ _ (bal_sepBy _ (by decide) _ ?_) (bal_cons_word _ _ (bal_append0 _ _ (bal_qname d _) ?_))
  · intro x hx
    obtain ⟨e, _, rfl⟩ := List.mem_map.1 hx
    exact bal_ref d e
  · induction s.joins with
    | nil => rfl
    | cons j js ih =>
      rw [List.flatMap_cons]
      exact bal_append0 _ _ (bal_cons_word _ _ (bal_join d j)) ih

theorem bal_brackets (ts : List Tok) (h : bal 0 ts = true) (r : List Tok) (hr : bal 0 r = true) :
    bal 0 (.punct '(' :: (ts ++ .punct ')' :: r)) = true := by
  have := flat_brackets ts [] h
  have h1 : flat 0 (.punct '(' :: (ts ++ [.punct ')'])) = true := by
    rw [this]; rfl
  have := bal_append0 _ _ (flat_bal 0 _ h1) hr
  simpa [List.append_assoc] using this

/-- A row of literals. -/
def RowOk (r : List (List Tok)) : Prop := r ≠ [] ∧ ∀ f ∈ r, flat 0 f = true

theorem bal_row (d : Dialect) (r : List (List Tok)) (h : RowOk r) : bal 0 (rowToks d r) = true := by
  have := bal_brackets _ (bal_commaSep r h.2) [] rfl
  unfold rowToks
  by_cases hd : d = .mysql
  · rw [if_pos hd]; exact bal_cons_word _ _ this
  · rw [if_neg hd]; exact this

theorem readRow_eq (d : Dialect) (r : List (List Tok)) (h : RowOk r) (rest : List Tok) :
    readRow d (rowToks d r ++ rest) = some (r, rest) := by
  have hb : inBrackets (.punct '(' :: (commaSep r ++ .punct ')' :: rest)) = some (commaSep r, rest) :=
    inBrackets_eq _ rest (bal_commaSep r h.2)
  unfold readRow rowToks
  by_cases hd : d = .mysql
  · rw [if_pos hd, if_pos hd]
    simp only [List.cons_append, List.nil_append, List.append_assoc, kws_one, Option.bind_some, hb, Option.map_some,
      splitTop_commaSep r h.1 h.2]
  · rw [if_neg hd, if_neg hd]
    simp only [List.cons_append, List.nil_append, List.append_assoc, Option.bind_some, hb, Option.map_some,
      splitTop_commaSep r h.1 h.2]

theorem rowToks_ne (d : Dialect) (r : List (List Tok)) : rowToks d r ≠ [] := by simp [rowToks]

theorem readValues_eq (d : Dialect) (rows : List (List (List Tok))) (h0 : rows ≠ []) (h : ∀ r ∈ rows, RowOk r) :
    whole (readValues d (.word b!"VALUES" :: sepBy [.punct ','] (rows.map (rowToks d)))) = some rows := by
  unfold readValues
  rw [kws_one, Option.bind_some]
  have hl := sepBy_length [.punct ','] (rows.map (rowToks d)) (by simp [rowToks_ne])
  rw [List.length_map] at hl
  have := many_eq (item := readRow d) (sep := mark ',') (us := [.punct ',']) (Ok := fun _ => True) (rowToks d)
    (fun _ => trivial) (fun r => mark_self ',' r) [] trivial rfl rows h0 (fun x hx r _ => readRow_eq d x (h x hx) r) _ hl
  rw [List.append_nil] at this
  rw [this]
  simp [whole]

/-! ## Common table expressions -/

/-- A common table expression that can be written. -/
structure CteOk (d : Dialect) (c : Cte) : Prop where
  name : Fixed c.name
  some : c.columns ≠ []
  columns : ∀ x ∈ c.columns, PlainName d x
  body : match c.body with
    | .values rows => rows ≠ [] ∧ ∀ r ∈ rows, RowOk r
    | .union sels => sels ≠ [] ∧ ∀ s ∈ sels, SelOk d s

theorem bal_rows (d : Dialect) (rows : List (List (List Tok))) (h : ∀ r ∈ rows, RowOk r) :
    bal 0 (.word b!"VALUES" :: sepBy [.punct ','] (rows.map (rowToks d))) = true := by
  refine bal_cons_word _ _ (bal_sepBy _ (by decide) _ ?_)
  intro x hx
  obtain ⟨r, hr, rfl⟩ := List.mem_map.1 hx
  exact bal_row d r (h r hr)

theorem ident_fixed (d : Dialect) (w : Str) (h : Fixed w) (r : List Tok) :
    ident d (keywords d) (.word w :: r) = some (w, r) := by
  rw [← h.tok d]
  exact ident_eq d w (h.plain d) r

theorem plain_tmp (d : Dialect) : PlainName d b!"tmp" := by cases d <;> decide +kernel

theorem readDerived_eq (d : Dialect) (rows : List (List (List Tok))) (h0 : rows ≠ []) (h : ∀ r ∈ rows, RowOk r)
    (cols : List Str) (hc : cols ≠ []) (hp : ∀ x ∈ cols, PlainName d x) :
    readDerived d (keywords d) (.word b!"SELECT" :: .punct '*' :: .word b!"FROM" :: .punct '(' :: (.word b!"VALUES" ::
      (sepBy [.punct ','] (rows.map (rowToks d))) ++ .punct ')' :: .word b!"AS" :: .word b!"tmp" :: .punct '(' ::
        (colToks d cols ++ [.punct ')']))) = some (cols, .values rows) := by
  unfold readDerived
  rw [kws_one, Option.bind_some, show ∀ r, mark '*' (.punct '*' :: r) = some r from mark_self '*', Option.bind_some,
    kws_one, Option.bind_some, inBrackets_eq _ _ (bal_rows d rows h), Option.bind_some]
  dsimp only
  rw [readValues_eq d rows h0 h, Option.bind_some, kws_one, Option.bind_some, ← tmp_tok d,
    ident_eq d _ (plain_tmp d), Option.bind_some]
  dsimp only
  rw [readCols_eq d cols hc hp]
  rfl

theorem readBody_union (d : Dialect) (sels : List Sel) (h0 : sels ≠ []) (h : ∀ s ∈ sels, SelOk d s) :
    readBody d (keywords d) (sepBy [.word b!"UNION"] (sels.map fun s =>
      .word b!"SELECT" :: .word b!"DISTINCT" :: selToks d s)) = some (.union sels) := by
  have hv : kws [b!"VALUES"] (sepBy [.word b!"UNION"] (sels.map fun s =>
      .word b!"SELECT" :: .word b!"DISTINCT" :: selToks d s)) = none := by
    cases sels with
    | nil => exact absurd rfl h0
    | cons s ss =>
      rw [List.map_cons, sepBy_flatMap, List.cons_append]
      simp [kws, isKw]
      decide
  unfold readBody
  rw [hv]
  dsimp only
  have hl := sepBy_length [.word b!"UNION"] (sels.map fun s => .word b!"SELECT" :: .word b!"DISTINCT" :: selToks d s)
    (by simp)
  rw [List.length_map] at hl
  have := many_eq (item := fun ts => (kws [b!"SELECT", b!"DISTINCT"] ts).bind (readSel d (keywords d)))
    (sep := kws [b!"UNION"]) (us := [.word b!"UNION"]) (Ok := NoJoin)
    (fun s => .word b!"SELECT" :: .word b!"DISTINCT" :: selToks d s)
    (fun r => ⟨⟨noDot_word _ _, by simp [kws, isKw]; decide⟩, by simp [kws, isKw]; decide⟩) (fun r => kws_one _ r) []
    ⟨⟨rfl, rfl⟩, rfl⟩ rfl sels h0 (fun s hs r hr => by
      have e : kws [b!"SELECT", b!"DISTINCT"] (.word b!"SELECT" :: .word b!"DISTINCT" :: selToks d s ++ r) =
        some (selToks d s ++ r) := kws_self [b!"SELECT", b!"DISTINCT"] _
      rw [e, Option.bind_some, readSel_eq d s (h s hs) r hr]) _ hl
  rw [List.append_nil] at this
  rw [this]
  simp [whole]

theorem bal_union (d : Dialect) (sels : List Sel) : bal 0 (sepBy [.word b!"UNION"] (sels.map fun s =>
    .word b!"SELECT" :: .word b!"DISTINCT" :: selToks d s)) = true := by
  refine bal_sepBy _ (by decide) _ ?_
  intro x hx
  obtain ⟨s, _, rfl⟩ := List.mem_map.1 hx
  exact bal_cons_word _ _ (bal_cons_word _ _ (bal_sel d s))

theorem readCte_eq (d : Dialect) (c : Cte) (h : CteOk d c) (rest : List Tok) :
    readCte d (keywords d) (cteToks d c ++ rest) = some (c, rest) := by
  obtain ⟨n, cols, body⟩ := c
  have hn := h.name
  have hc := h.some
  have hp := h.columns
  have hb := h.body
  dsimp only at hn hc hp hb
  unfold readCte cteToks
  dsimp only
  rw [List.cons_append, ident_fixed d n hn, Option.bind_some]
  dsimp only
  cases body with
  | values rows =>
    dsimp only at hb ⊢
    by_cases hd : d = .sqlserver
    · rw [if_pos hd]
      have e : ([.word b!"AS", .punct '(', .word b!"SELECT", .punct '*', .word b!"FROM", .punct '(', .word b!"VALUES"] ++
          (sepBy [.punct ','] (rows.map (rowToks d)) ++ (.punct ')' :: .word b!"AS" :: .word b!"tmp" :: .punct '(' ::
          (colToks d cols ++ [.punct ')', .punct ')']))) ++ rest : List Tok) =
        .word b!"AS" :: .punct '(' :: ((.word b!"SELECT" :: .punct '*' :: .word b!"FROM" :: .punct '(' :: (.word b!"VALUES" ::
          (sepBy [.punct ','] (rows.map (rowToks d))) ++ .punct ')' :: .word b!"AS" :: .word b!"tmp" :: .punct '(' ::
          (colToks d cols ++ [.punct ')']))) ++ .punct ')' :: rest) := by
        simp [List.append_assoc]
      have hbal : bal 0 (.word b!"SELECT" :: .punct '*' :: .word b!"FROM" :: .punct '(' :: (.word b!"VALUES" ::
          (sepBy [.punct ','] (rows.map (rowToks d))) ++ .punct ')' :: .word b!"AS" :: .word b!"tmp" :: .punct '(' ::
          (colToks d cols ++ [.punct ')']))) = true := by
        refine bal_append0 [.word b!"SELECT", .punct '*', .word b!"FROM"] _ (by decide) ?_
        refine bal_brackets _ (bal_rows d rows hb.2) _ ?_
        exact bal_append0 [.word b!"AS", .word b!"tmp"] _ (by decide) (bal_brackets _ (bal_colToks d cols) [] rfl)
      rw [e]
      have hno : readCols d (keywords d) (.word b!"AS" :: .punct '(' :: ((.word b!"SELECT" :: .punct '*' :: .word b!"FROM" :: .punct '(' :: (.word b!"VALUES" ::
          (sepBy [.punct ','] (rows.map (rowToks d))) ++ .punct ')' :: .word b!"AS" :: .word b!"tmp" :: .punct '(' ::
          (colToks d cols ++ [.punct ')']))) ++ .punct ')' :: rest)) = none := by
        simp [readCols, inBrackets]
      rw [hno]
      dsimp only
      rw [kws_one, Option.bind_some, inBrackets_eq _ _ hbal, Option.bind_some]
      dsimp only
      rw [readDerived_eq d rows hb.1 hb.2 cols hc hp]
      rfl
    · rw [if_neg hd]
      have e : (.punct '(' :: (colToks d cols ++ (.punct ')' :: .word b!"AS" :: .punct '(' :: .word b!"VALUES" ::
          (sepBy [.punct ','] (rows.map (rowToks d)) ++ [.punct ')']))) ++ rest : List Tok) =
        .punct '(' :: (colToks d cols ++ .punct ')' :: (.word b!"AS" :: .punct '(' :: ((.word b!"VALUES" ::
          sepBy [.punct ','] (rows.map (rowToks d))) ++ .punct ')' :: rest))) := by
        simp [List.append_assoc]
      rw [e, readCols_eq d cols hc hp]
      dsimp only
      rw [kws_one, Option.bind_some, inBrackets_eq _ _ (bal_rows d rows hb.2), Option.bind_some]
      dsimp only
      unfold readBody
      rw [kws_one]
      dsimp only
      rw [if_neg hd, readValues_eq d rows hb.1 hb.2]
      rfl
  | union sels =>
    dsimp only at hb ⊢
    have e : (.punct '(' :: (colToks d cols ++ (.punct ')' :: .word b!"AS" :: .punct '(' ::
      (sepBy [.word b!"UNION"] (sels.map fun s => .word b!"SELECT" :: .word b!"DISTINCT" :: selToks d s) ++
        [.punct ')']))) ++ rest : List Tok) =
      .punct '(' :: (colToks d cols ++ .punct ')' :: (.word b!"AS" :: .punct '(' ::
      (sepBy [.word b!"UNION"] (sels.map fun s => .word b!"SELECT" :: .word b!"DISTINCT" :: selToks d s) ++
        .punct ')' :: rest))) := by
      simp [List.append_assoc]
    rw [e, readCols_eq d cols hc hp]
    dsimp only
    rw [kws_one, Option.bind_some, inBrackets_eq _ _ (bal_union d sels), Option.bind_some]
    dsimp only
    rw [readBody_union d sels hb.1 hb.2]
    rfl

/-! ## The query -/

structure QueryOk (d : Dialect) (q : Query) : Prop where
  someCtes : q.ctes ≠ []
  ctes : ∀ c ∈ q.ctes, CteOk d c
  main : SelOk d q.main
  someOrder : q.order ≠ []
  order : ∀ r ∈ q.order, RefOk d r

theorem readQuery_eq (d : Dialect) (q : Query) (h : QueryOk d q) :
    readQuery d (keywords d) (queryToks d q) = some q := by
  unfold readQuery queryToks
  have hl := sepBy_length [.punct ','] (q.ctes.map (cteToks d)) (by simp [cteToks])
  have hl' := sepBy_length [.punct ','] (q.order.map (refToks d)) (fun x hx => by
      obtain ⟨e, _, rfl⟩ := List.mem_map.1 hx
      exact refToks_ne d e)
  rw [List.length_map] at hl hl'
  rw [kws_one, Option.bind_some, many_eq (us := [.punct ',']) (Ok := fun _ => True) (cteToks d) (fun _ => trivial)
    (fun r => mark_self ',' r) _ trivial (by simp [mark]) q.ctes h.someCtes
    (fun c hc r _ => readCte_eq d c (h.ctes c hc) r) _ (by simp; omega), Option.bind_some]
  dsimp only
  rw [kws_one, Option.bind_some, readSel_eq d q.main h.main _
    ⟨⟨noDot_word _ _, by simp [kws, isKw]; decide⟩, by simp [kws, isKw]; decide⟩, Option.bind_some]
  dsimp only
  have e : ∀ r, kws [b!"ORDER", b!"BY"] (.word b!"ORDER" :: .word b!"BY" :: r) = some r :=
    fun r => kws_self [b!"ORDER", b!"BY"] r
  rw [e, Option.bind_some, many_eq (us := [.punct ',']) (Ok := NoDot) (refToks d)
    (fun r => noDot_punct ',' (by decide) r) (fun r => mark_self ',' r) _ (noDot_punct ';' (by decide) _)
    (by simp [mark]) q.order h.someOrder (fun x hx r hr => readRef_eq d x (h.order x hx) r hr) _ (by simp; omega),
    Option.bind_some]
  simp

end SelectSpec
