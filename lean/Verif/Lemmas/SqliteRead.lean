import Verif.Spec.SqliteText
import Verif.Lemmas.DdlStmt

/-! Lemmas about reading the statements of Verif.Spec.SqliteText. -/

namespace LiteText
open Go SqlSpec Sqddl
open DdlText hiding Stmt readStmt runScript
open WipeSpec (kws readName)

theorem kws_head {k : Str} {ks : List Str} {ts r : List Tok} (h : kws (k :: ks) ts = some r) :
    ∃ w q, ts = .word w :: q ∧ toLower w = toLower k := by
  cases ts with
  | nil => cases h
  | cons t q =>
    rw [kws] at h
    split at h
    · rename_i hk
      cases t with
      | word w => exact ⟨w, q, rfl, eq_of_beq hk⟩
      | quoted _ => cases hk
      | str _ => cases hk
      | punct _ => cases hk
    · cases h

/-- CREATE TABLE and CREATE INDEX begin with CREATE. -/
theorem create_head {ts : List Tok} {st : DdlText.Stmt} {x : Stmt}
    (h : DdlText.readStmt .sqlite (keywords .sqlite) ts = some st) (hx : ofBase st = some x) :
    ∃ w q, ts = .word w :: q ∧ toLower w = b!"create" := by
  unfold DdlText.readStmt at h
  split at h
  · rename_i e; exact kws_head e
  split at h
  · obtain ⟨n, -, rfl⟩ := Option.map_eq_some_iff.1 h; cases hx
  split at h
  · obtain ⟨⟨s, t, r⟩, -, e⟩ := Option.bind_eq_some_iff.1 h
    dsimp only at e
    split at e
    · cases e; cases hx
    · cases e
  split at h
  · rename_i e; exact kws_head e
  split at h
  · unfold readAlterTable at h
    obtain ⟨⟨s, t, r⟩, -, e⟩ := Option.bind_eq_some_iff.1 h
    obtain ⟨xs, -, rfl⟩ := Option.map_eq_some_iff.1 e
    cases hx
  · obtain ⟨r, e, -⟩ := Option.bind_eq_some_iff.1 h
    exact kws_head e

/-- CREATE TABLE and CREATE INDEX are read as in Verif.Spec.DdlText. -/
theorem readStmt_base {ts : List Tok} {st : DdlText.Stmt} {x : Stmt}
    (h : DdlText.readStmt .sqlite (keywords .sqlite) ts = some st) (hx : ofBase st = some x) :
    readStmt (keywords .sqlite) ts = some x := by
  obtain ⟨w, q, rfl, hw⟩ := create_head h hx
  have hk : ∀ k ks, toLower k ≠ b!"create" → kws (k :: ks) (.word w :: q) = none := by
    intro k ks hk
    rw [kws_word, if_neg]
    rw [hw]; exact fun h => hk h.symm
  unfold readStmt
  rw [hk _ _ (by decide), hk _ _ (by decide), hk _ _ (by decide), hk _ _ (by decide),
    hk _ _ (by decide)]
  simp only [h, Option.bind_some, hx]

theorem readName_ident (n : Str) (h : PlainName .sqlite n) (r : List Tok)
    (hr : r.head? ≠ some (.punct '.')) :
    readName .sqlite (keywords .sqlite) (identTok .sqlite n :: r) = some (none, n, r) := by
  have := readName_qname .sqlite (none, n) (by simp) h r hr
  simpa [qnameToks] using this

theorem readTheName_ident (n : Str) (h : PlainName .sqlite n) :
    readTheName (keywords .sqlite) [identTok .sqlite n] = some (none, n) := by
  simp [readTheName, readName_ident n h [] (by simp)]

theorem readStmt_pragma (v : Str) :
    readStmt (keywords .sqlite) [.word b!"PRAGMA", .word b!"legacy_alter_table", .punct '=', .word v] =
      some (.pragma b!"legacy_alter_table" (toLower v)) := by
  simp [readStmt, kws_word, kws_end, readPragma, toLower, lowerC]

theorem readStmt_dropTable (n : Str) (h : PlainName .sqlite n) :
    readStmt (keywords .sqlite) [.word b!"DROP", .word b!"TABLE", identTok .sqlite n] =
      some (.dropTable (none, n)) := by
  simp [readStmt, kws_word, kws_end, readTheName_ident n h, toLower, lowerC]

theorem readStmt_dropIndex (n : Str) (h : PlainName .sqlite n) :
    readStmt (keywords .sqlite) [.word b!"DROP", .word b!"INDEX", identTok .sqlite n] =
      some (.dropIndex (none, n)) := by
  simp [readStmt, kws_word, kws_end, readTheName_ident n h, toLower, lowerC]

theorem readStmt_dropColumn (n c : Str) (h : PlainName .sqlite n) (hc : PlainName .sqlite c) :
    readStmt (keywords .sqlite) [.word b!"ALTER", .word b!"TABLE", identTok .sqlite n,
      .word b!"DROP", .word b!"COLUMN", identTok .sqlite c] = some (.dropColumn (none, n) c) := by
  have e := readName_ident n h [.word b!"DROP", .word b!"COLUMN", identTok .sqlite c] (by simp)
  simp [readStmt, readAlter, kws_word, kws_end, e, toLower, lowerC, readOne_ident .sqlite c hc]

theorem readStmt_rename (n m : Str) (h : PlainName .sqlite n) (hm : PlainName .sqlite m) :
    readStmt (keywords .sqlite) [.word b!"ALTER", .word b!"TABLE", identTok .sqlite n,
      .word b!"RENAME", .word b!"TO", identTok .sqlite m] = some (.renameTable (none, n) m) := by
  have e := readName_ident n h [.word b!"RENAME", .word b!"TO", identTok .sqlite m] (by simp)
  simp [readStmt, readAlter, kws_word, kws_end, e, toLower, lowerC, readOne_ident .sqlite m hm]

theorem readStmt_addColumn (n : Str) (h : PlainName .sqlite n) (c : Col) (ty : List Tok)
    (hc : c.Ok .sqlite ty) :
    readStmt (keywords .sqlite) (.word b!"ALTER" :: .word b!"TABLE" :: identTok .sqlite n ::
      .word b!"ADD" :: .word b!"COLUMN" :: identTok .sqlite c.name :: (ty ++ colTail .sqlite c)) =
      some (.addColumn (none, n) c) := by
  have e := readName_ident n h (.word b!"ADD" :: .word b!"COLUMN" :: identTok .sqlite c.name ::
    (ty ++ colTail .sqlite c)) (by simp)
  simp [readStmt, readAlter, kws_word, kws_end, e, toLower, lowerC, readCol_eq .sqlite c ty hc]

theorem untilWord_pass (ks : List Str) (a b : List Tok)
    (h : ∀ t ∈ a, deeper 0 t = 0 ∧ ks.any (fun k => isKw k t) = false)
    (hb : ∃ t r, b = t :: r ∧ ks.any (fun k => isKw k t) = true) :
    untilWord ks 0 (a ++ b) = (a, b) := by
  induction a with
  | nil =>
    obtain ⟨t, r, rfl, ht⟩ := hb
    simp only [List.nil_append, untilWord, ht, and_self, if_true]
  | cons t a ih =>
    obtain ⟨h1, h2⟩ := h t (by simp)
    have := ih fun x hx => h x (by simp [hx])
    simp only [List.cons_append, untilWord, h2, Bool.false_eq_true, and_false, if_false, h1, this]

theorem mem_colToks (cols : List Str) (t : Tok) (h : t ∈ colToks .sqlite cols) :
    t = .punct ',' ∨ ∃ c, t = identTok .sqlite c := by
  unfold colToks at h
  induction cols with
  | nil => cases h
  | cons c r ih =>
    cases r with
    | nil => simp [commaSep] at h; exact Or.inr ⟨c, h⟩
    | cons y r =>
      simp only [List.map_cons, commaSep, List.cons_append, List.nil_append, List.mem_cons] at h
      rcases h with h | h | h
      · exact Or.inr ⟨c, h⟩
      · exact Or.inl h
      · exact ih h

theorem untilWord_cols (cols : List Str) (r : List Tok) :
    untilWord [b!"FROM"] 0 (colToks .sqlite cols ++ .word b!"FROM" :: r) =
      (colToks .sqlite cols, .word b!"FROM" :: r) := by
  refine untilWord_pass _ _ _ ?_ ⟨_, _, rfl, by decide⟩
  intro t ht
  rcases mem_colToks cols t ht with rfl | ⟨c, rfl⟩
  · decide
  · have h1 := identTok_not_punct .sqlite c
    refine ⟨by simp [deeper, h1], ?_⟩
    simp [isKw_ident .sqlite b!"FROM" c (by decide +kernel)]

theorem readStmt_insert (n m : Str) (cols : List Str) (hn : PlainName .sqlite n)
    (hm : PlainName .sqlite m) (h0 : cols ≠ []) (h : ∀ c ∈ cols, PlainName .sqlite c) :
    readStmt (keywords .sqlite) (.word b!"INSERT" :: .word b!"INTO" :: identTok .sqlite n ::
      .punct '(' :: (colToks .sqlite cols ++ .punct ')' :: .word b!"SELECT" ::
      (colToks .sqlite cols ++ [.word b!"FROM", identTok .sqlite m]))) =
      some (.copyRows (none, n) cols cols (none, m)) := by
  have e := readName_ident n hn (.punct '(' :: (colToks .sqlite cols ++ .punct ')' ::
    .word b!"SELECT" :: (colToks .sqlite cols ++ [.word b!"FROM", identTok .sqlite m]))) (by simp)
  have e2 := readCols_eq .sqlite cols h0 h (.word b!"SELECT" :: (colToks .sqlite cols ++
    [.word b!"FROM", identTok .sqlite m]))
  have e3 := untilWord_cols cols [identTok .sqlite m]
  have e4 := readName_ident m hm [] (by simp)
  have e5 : (splitTop 0 (colToks .sqlite cols)).mapM (readOne .sqlite (keywords .sqlite)) =
      some cols := by
    unfold colToks
    rw [splitTop_commaSep _ (by simpa using h0)]
    · have := mapM_map_some (readOne .sqlite (keywords .sqlite)) (fun c : Str => [identTok .sqlite c])
        id cols fun c hc => readOne_ident .sqlite c (h c hc)
      simpa using this
    · intro x hx
      obtain ⟨c, -, rfl⟩ := List.mem_map.1 hx
      exact flat_ident .sqlite c
  have e6 : ∀ r, readStmt (keywords .sqlite) (.word b!"INSERT" :: .word b!"INTO" :: r) =
      readInsert (keywords .sqlite) r := by
    intro r
    simp [readStmt, kws_word, kws_end, toLower, lowerC]
  rw [e6, readInsert, e, Option.bind_some]
  dsimp only
  rw [e2, Option.bind_some]
  dsimp only
  rw [kws_word, if_pos rfl, kws_end, Option.bind_some, e3]
  dsimp only
  rw [e5, Option.bind_some, kws_word, if_pos rfl, kws_end, Option.bind_some, e4]
  rfl

end LiteText
