import Verif.Lemmas.DdlIdx

/-!
# Reading statements
-/

namespace DdlText
open SqlSpec Go Sqddl
open WipeSpec (kws readName)

theorem commaSep_cons (x : List Tok) (xs : List (List Tok)) :
    commaSep (x :: xs) = x ++ xs.flatMap fun y => .punct ',' :: y := by
  induction xs generalizing x with
  | nil => simp [commaSep]
  | cons y r ih => rw [commaSep, ih]; simp

theorem piece_flatMap {α : Type} {d : Dialect} (xs : List α) (f : α → Str) (g : α → List Tok)
    (h : ∀ x ∈ xs, Piece d (f x) (g x)) : Piece d (xs.flatMap f) (xs.flatMap g) := by
  induction xs with
  | nil => exact Piece.nil d
  | cons x r ih =>
    simp only [List.flatMap_cons]
    exact (h x (by simp)).append (ih fun y hy => h y (by simp [hy]))

/-! ## Brackets and commas of the parts -/

theorem flat_using (b : Bool) (m : Option Str) : flat 0 (usingToks b m) := by
  unfold usingToks
  cases b
  · rfl
  · cases m <;> rfl

/-- The tokens of an index before WHERE. -/
theorem flat_idxHead (d : Dialect) (x : Idx) (pw : Bool) (h : x.Ok d pw) :
    flat 0 (idxToks d x false) := by
  have hflat : ∀ y ∈ x.cols.map (idxColToks d), flat 0 y := by
    intro y hy
    simp only [List.mem_map] at hy
    obtain ⟨z, hz, rfl⟩ := hy
    exact flat_idxCol d z (h.cols z hz)
  unfold idxToks
  apply flat_append0
  · cases x.unique
    · cases x.kind <;> rfl
    · rfl
  apply flat_cons_word
  apply flat_append0 _ _ (flat_optWords _ _)
  apply flat_append0 [identTok d x.name] _ (flat_ident d _)
  apply flat_append0 _ _ (flat_using _ _)
  apply flat_append0
  · cases x.table with
    | none => rfl
    | some n =>
      simp only [Option.toList_some, List.flatMap_cons, List.flatMap_nil, List.append_nil]
      exact flat_cons_word _ _ (flat_qname d n)
  apply flat_append0 _ _ (flat_using _ _)
  rw [flat_brackets _ _ (bal_commaSep _ hflat)]
  apply flat_append0 _ _ _ (by rfl)
  split
  · rfl
  · exact flat_cons_word _ _ (flat_group d _)

theorem idxToks_where (d : Dialect) (x : Idx) (pw : Bool) :
    idxToks d x pw = idxToks d x false ++ (if pw then .word b!"WHERE" :: x.pred else []) := by
  unfold idxToks
  simp [List.append_assoc]

theorem flat_idx (d : Dialect) (x : Idx) (h : x.Ok d false) : flat 0 (idxToks d x false) :=
  flat_idxHead d x false h

theorem bal_idx (d : Dialect) (x : Idx) (pw : Bool) (h : x.Ok d pw) (hp : bal 0 x.pred) :
    bal 0 (idxToks d x pw) := by
  rw [idxToks_where]
  apply bal_append0 _ _ (flat_bal _ _ (flat_idxHead d x pw h))
  cases pw
  · rfl
  · exact bal_append0 [.word b!"WHERE"] _ (by rfl) hp

theorem flat_identity {d : Dialect} {o : Option (List Tok)} (h : ∀ i ∈ o, i ∈ identities d) :
    flat 0 (o.getD []) := by
  cases o with
  | none => rfl
  | some i =>
    have := h i rfl
    cases d <;> simp [identities] at this
    · rcases this with rfl | rfl <;> rfl
    · subst this; rfl

theorem flat_gen (d : Dialect) (g : Option (List Tok × Bool)) (h : ∀ p ∈ g, bal 0 p.1) :
    flat 0 (genToks d g) := by
  cases g with
  | none => rfl
  | some p =>
    simp only [genToks, Option.toList_some, List.flatMap_cons, List.flatMap_nil, List.append_nil]
    apply flat_append0
    · split <;> rfl
    · apply flat_cons_word
      rw [flat_brackets _ _ (h p rfl)]
      split <;> rfl

/-- The tokens of a column definition have no comma outside of brackets. -/
theorem flat_col (d : Dialect) (c : Col) (ty : List Tok) (h : c.Ok d ty) :
    flat 0 (identTok d c.name :: (ty ++ colTail d c)) := by
  apply flat_append0 [identTok d c.name] _ (flat_ident d _)
  apply flat_append0 _ _ h.flatType
  unfold colTail
  apply flat_append0 _ _ (flat_optWords _ _)
  apply flat_append0 _ _ (flat_optWords _ _)
  apply flat_append0 _ _ (flat_optWords _ _)
  apply flat_append0 _ _ (flat_optWords _ _)
  apply flat_append0 _ _ (flat_identity h.identity)
  apply flat_append0
  · cases e : c.default with
    | none => rfl
    | some x =>
      simp only [Option.toList_some, List.flatMap_cons, List.flatMap_nil, List.append_nil]
      exact flat_cons_word _ _ (h.flatDefault x (by rw [e]; rfl))
  apply flat_append0 _ _ (flat_optWords _ _)
  apply flat_append0
  · cases e : c.collation with
    | none => rfl
    | some t =>
      have hp := h.collation t (by rw [e]; rfl)
      simp [flat, hp, deeper]
  apply flat_append0 _ _ (flat_gen d _ h.generated)
  apply flat_append0
  · cases e : c.ref with
    | none => rfl
    | some x => simpa using flat_ref d x
  exact flat_append0 _ _ (flat_optWords _ _) (flat_optWords _ _)

/-! ## Items of CREATE TABLE -/

/-- A name that does not begin a constraint. -/
theorem startsCon_ident (d : Dialect) (n : Str) (r : List Tok) (hd : d ≠ .oracle ∧ d ≠ .other)
    (h : d = .postgres → toLower n ≠ b!"exclude") : startsCon d (identTok d n :: r) = false := by
  unfold startsCon conWords
  simp only [List.any_append, List.head?_cons, Option.any_some]
  have h1 : ([b!"CONSTRAINT", b!"PRIMARY", b!"UNIQUE", b!"FOREIGN", b!"CHECK"].any fun k =>
      isKw k (identTok d n)) = false := by
    simp only [List.any_cons, List.any_nil, Bool.or_false]
    have : ∀ k ∈ [b!"CONSTRAINT", b!"PRIMARY", b!"UNIQUE", b!"FOREIGN", b!"CHECK"],
        toLower k ∈ keywords d := by
      cases d <;> first | exact absurd rfl hd.1 | exact absurd rfl hd.2 | decide +kernel
    simp [isKw_ident d _ n (this _ _)]
  rw [h1]
  split
  · rename_i hp
    simp only [List.any_cons, List.any_nil, Bool.or_false, Bool.false_or]
    have := h hp
    unfold identTok
    split
    · rfl
    · simpa [isKw, toLower, lowerC] using this
  · rfl

theorem readItem_col (d : Dialect) (c : Col) (ty : List Tok) (h : c.Ok d ty)
    (hd : d ≠ .oracle ∧ d ≠ .other) (hx : d = .postgres → toLower c.name ≠ b!"exclude") :
    readItem d (keywords d) (identTok d c.name :: (ty ++ colTail d c)) = some (.col c) := by
  unfold readItem
  rw [startsCon_ident d c.name _ hd hx]
  simp [readCol_eq d c ty h]

theorem startsCon_con (d : Dialect) (c : Con) (h : c.Ok d)
    (he : ∀ m es p, c.kind = .exclude m es p → d = .postgres) : startsCon d (conToks d c) = true := by
  unfold startsCon conWords conToks
  cases c.name with
  | some n =>
    simp only [Option.toList_some, List.flatMap_cons, List.cons_append, List.head?_cons,
      Option.any_some, List.any_cons, isKw, beq_self_eq_true, Bool.true_or]
  | none =>
    simp only [Option.toList_none, List.flatMap_nil, List.nil_append]
    cases hk : c.kind with
    | exclude m es p =>
      have := he m es p hk
      subst this
      simp [kindToks, isKw]
    | _ => simp [kindToks, isKw]

theorem readItem_con (d : Dialect) (c : Con) (h : c.Ok d)
    (he : ∀ m es p, c.kind = .exclude m es p → d = .postgres) :
    readItem d (keywords d) (conToks d c) = some (.con { c with kind := foldKind c.kind }) := by
  unfold readItem
  rw [startsCon_con d c h he, if_pos rfl, readCon_eq d c h]
  rfl

/-! ## Actions of ALTER TABLE -/

theorem kws_word (k w : Str) (ks : List Str) (r : List Tok) :
    kws (k :: ks) (.word w :: r) = if toLower w = toLower k then kws ks r else none := by
  simp [kws, isKw]

theorem kws_end (ts : List Tok) : kws [] ts = some ts := rfl

theorem readAction_dropConstraint (d : Dialect) (n : Str) (h : PlainName d n) :
    readAction d (keywords d) [.word b!"DROP", .word b!"CONSTRAINT", identTok d n] =
      some (.dropConstraint n) := by
  simp [readAction, kws_word, kws_end, readOne_ident d n h]

theorem readAction_dropIndex (d : Dialect) (n : Str) (h : PlainName d n) :
    readAction d (keywords d) [.word b!"DROP", .word b!"INDEX", identTok d n] =
      some (.dropIndex n) := by
  simp [readAction, kws_word, kws_end, readOne_ident d n h, toLower, lowerC]

theorem readAction_dropColumn (d : Dialect) (n : Str) (h : PlainName d n) :
    readAction d (keywords d) [.word b!"DROP", .word b!"COLUMN", identTok d n] =
      some (.dropColumn n) := by
  simp [readAction, kws_word, kws_end, readOne_ident d n h, toLower, lowerC]

theorem readAction_addColumn (d : Dialect) (c : Col) (ty : List Tok) (h : c.Ok d ty) :
    readAction d (keywords d) (.word b!"ADD" :: .word b!"COLUMN" ::
      identTok d c.name :: (ty ++ colTail d c)) = some (.addColumn c) := by
  simp [readAction, kws_word, kws_end, readCol_eq d c ty h, toLower, lowerC]

theorem readAction_modifyColumn (d : Dialect) (c : Col) (ty : List Tok) (h : c.Ok d ty) :
    readAction d (keywords d) (.word b!"MODIFY" :: .word b!"COLUMN" ::
      identTok d c.name :: (ty ++ colTail d c)) = some (.modifyColumn c) := by
  simp [readAction, kws_word, kws_end, readCol_eq d c ty h, toLower, lowerC]

/-- An index begins with one of these words. -/
theorem idxToks_head (d : Dialect) (x : Idx) (pw : Bool) (h : x.Ok d pw) :
    ∃ w r, idxToks d x pw = .word w :: r ∧
      toLower w ∈ [b!"unique", b!"fulltext", b!"spatial", b!"index"] := by
  unfold idxToks
  cases hu : x.unique with
  | true => exact ⟨_, _, rfl, by decide⟩
  | false =>
    cases hk : x.kind with
    | none => exact ⟨_, _, rfl, by decide⟩
    | some k =>
      refine ⟨k, _, rfl, ?_⟩
      rcases (h.kind k hk).2 with e | e <;> simp [e]

theorem readAction_addIndex (d : Dialect) (x : Idx) (pw : Bool) (h : x.Ok d pw)
    (ht : x.table = none) :
    readAction d (keywords d) (.word b!"ADD" :: idxToks d x pw) = some (.addIndex x.fold) := by
  have e1 := readIdx_eq d x pw h
  rw [ht] at e1
  have e2 : (readIdxHead (idxToks d x pw)).isSome := by
    unfold idxToks
    rw [readIdxHead_eq _ _ _ h.kind]; rfl
  have e3 : kws [b!"COLUMN"] (idxToks d x pw) = none := by
    obtain ⟨w, r, e, hw⟩ := idxToks_head d x pw h
    rw [e, kws_word, if_neg]
    intro hc; rw [hc] at hw; revert hw; decide
  simp only [Option.isNone_none] at e1
  simp [readAction, kws_word, kws_end, toLower, lowerC, e1, e2, e3]

theorem conToks_head (d : Dialect) (c : Con) :
    HeadIn [b!"CONSTRAINT", b!"PRIMARY", b!"UNIQUE", b!"FOREIGN", b!"CHECK", b!"EXCLUDE"]
      (conToks d c) := by
  unfold conToks
  cases c.name with
  | some n => exact headIn_word _ _ _ (by simp)
  | none =>
    simp only [Option.toList_none, List.flatMap_nil, List.nil_append]
    cases c.kind <;> exact headIn_word _ _ _ (by simp)

theorem readIdxHead_con (d : Dialect) (c : Con) : readIdxHead (conToks d c) = none := by
  have h := conToks_head d c
  have hu : kws [b!"UNIQUE", b!"INDEX"] (conToks d c) = none := by
    unfold conToks
    cases c.name with
    | some n => exact kws_diff _ _ _ _ (by decide)
    | none =>
      simp only [Option.toList_none, List.flatMap_nil, List.nil_append]
      cases c.kind <;> simp [kindToks, kws_word, toLower, lowerC, groupToks, kws, isKw]
  unfold readIdxHead
  rw [hu, kws_none h _ _ (by decide), kws_none h _ _ (by decide), kws_none h _ _ (by decide)]
  rfl

theorem readAction_addConstraint (d : Dialect) (c : Con) (h : c.Ok d) :
    readAction d (keywords d) (.word b!"ADD" :: conToks d c) =
      some (.addConstraint { c with kind := foldKind c.kind }) := by
  have e3 : kws [b!"COLUMN"] (conToks d c) = none := kws_none (conToks_head d c) _ _ (by decide)
  simp [readAction, kws_word, kws_end, toLower, lowerC, e3, readIdxHead_con, readCon_eq d c h]

/-! ## Statements -/

theorem readStmt_createSchema (d : Dialect) (n : Str) (h : PlainName d n) :
    readStmt d (keywords d) [.word b!"CREATE", .word b!"SCHEMA", .word b!"IF", .word b!"NOT",
      .word b!"EXISTS", identTok d n] = some (.createSchema n) := by
  simp [readStmt, kws_word, kws_end, readOne_ident d n h]

theorem readStmt_dropSchema (d : Dialect) (n : Str) (h : PlainName d n) :
    readStmt d (keywords d) [.word b!"DROP", .word b!"SCHEMA", .word b!"IF",
      .word b!"EXISTS", identTok d n] = some (.dropSchema n) := by
  simp [readStmt, kws_word, kws_end, readOne_ident d n h, toLower, lowerC]

theorem readStmt_dropTable (d : Dialect) (n : Name) (hs : ∀ s ∈ n.1, PlainName d s)
    (hn : PlainName d n.2) :
    readStmt d (keywords d) (.word b!"DROP" :: .word b!"TABLE" :: .word b!"IF" ::
      .word b!"EXISTS" :: qnameToks d n) = some (.dropTable n) := by
  have := readName_qname d n hs hn [] (by simp)
  simp only [List.append_nil] at this
  simp [readStmt, kws_word, kws_end, this, toLower, lowerC]

theorem readStmt_createTable (d : Dialect) (n : Name) (hs : ∀ s ∈ n.1, PlainName d s)
    (hn : PlainName d n.2) (xs : List (List Tok × Item)) (h0 : xs ≠ [])
    (hx : ∀ x ∈ xs, flat 0 x.1 ∧ readItem d (keywords d) x.1 = some x.2) :
    readStmt d (keywords d) (.word b!"CREATE" :: .word b!"TABLE" :: (qnameToks d n ++
      .punct '(' :: (commaSep (xs.map (·.1)) ++ [.punct ')']))) =
      some (.createTable n (xs.map (·.2))) := by
  have hfl : ∀ y ∈ xs.map (·.1), flat 0 y := by
    intro y hy; simp only [List.mem_map] at hy; obtain ⟨x, h, rfl⟩ := hy; exact (hx x h).1
  have e1 := readName_qname d n hs hn (.punct '(' :: (commaSep (xs.map (·.1)) ++ [.punct ')']))
    (by simp)
  have e2 := inBrackets_eq (commaSep (xs.map (·.1))) [] (bal_commaSep _ hfl)
  have e3 := splitTop_commaSep (xs.map (·.1)) (by simpa using h0) hfl
  have e4 := mapM_map_some (readItem d (keywords d)) (fun x : List Tok × Item => x.1) (·.2) xs
    fun x h => (hx x h).2
  simp [readStmt, kws_word, kws_end, toLower, lowerC, readCreateTable, e1, e2, e3, e4]

theorem readStmt_alterTable (d : Dialect) (n : Name) (hs : ∀ s ∈ n.1, PlainName d s)
    (hn : PlainName d n.2) (xs : List (List Tok × Action)) (h0 : xs ≠ [])
    (hx : ∀ x ∈ xs, flat 0 x.1 ∧ readAction d (keywords d) x.1 = some x.2)
    (hd : ∀ x ∈ xs, x.1.head? ≠ some (.punct '.') ∧ x.1 ≠ []) :
    readStmt d (keywords d) (.word b!"ALTER" :: .word b!"TABLE" :: (qnameToks d n ++
      commaSep (xs.map (·.1)))) = some (.alterTable n (xs.map (·.2))) := by
  have hfl : ∀ y ∈ xs.map (·.1), flat 0 y := by
    intro y hy; simp only [List.mem_map] at hy; obtain ⟨x, h, rfl⟩ := hy; exact (hx x h).1
  have e1 := readName_qname d n hs hn (commaSep (xs.map (·.1))) (by
    cases xs with
    | nil => exact absurd rfl h0
    | cons x r =>
      have := hd x (by simp)
      rw [List.map_cons, commaSep_cons]
      cases e : x.1 with
      | nil => exact absurd e this.2
      | cons t q => rw [e] at this; simpa using this.1)
  have e3 := splitTop_commaSep (xs.map (·.1)) (by simpa using h0) hfl
  have e4 := mapM_map_some (readAction d (keywords d)) (fun x : List Tok × Action => x.1) (·.2) xs
    fun x h => (hx x h).2
  simp [readStmt, kws_word, kws_end, toLower, lowerC, readAlterTable, e1, e3, e4]

theorem readStmt_createIndex (d : Dialect) (x : Idx) (pw : Bool) (h : x.Ok d pw) (n : Name)
    (ht : x.table = some n) :
    readStmt d (keywords d) (.word b!"CREATE" :: idxToks d x pw) = some (.createIndex x.fold) := by
  have e1 := readIdx_eq d x pw h
  rw [ht] at e1
  simp only [Option.isNone_some] at e1
  obtain ⟨w, r, e, hw⟩ := idxToks_head d x pw h
  have h1 : ∀ k ks, toLower k ∉ [b!"unique", b!"fulltext", b!"spatial", b!"index"] →
      kws (k :: ks) (idxToks d x pw) = none := by
    intro k ks hk
    rw [e, kws_word, if_neg]
    intro hc; rw [hc] at hw; exact hk hw
  have h2 := h1 b!"SCHEMA" [b!"IF", b!"NOT", b!"EXISTS"] (by decide)
  have h3 := h1 b!"TABLE" [] (by decide)
  simp [readStmt, kws_word, kws_end, toLower, lowerC, h2, h3, e1]

end DdlText
