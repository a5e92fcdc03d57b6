import Verif.Lemmas.Lex
import Verif.Props.Types

/-!
# Composing texts that are read token by token

`Piece d s ts`: the text `s` can follow any token, and is read as `ts`.  Pieces can be appended.
-/

namespace SqlSpec
open Go Sqddl

/-- Characters of the text between names and literals. -/
def plainTextChar (c : Char) : Bool :=
  wordChar c || isSpace c || [';', '.', ',', '(', ')', '='].contains c

/-- Characters that are read the same way whatever surrounds them; square brackets are quotes on
SQL Server. -/
def simpleChar (d : Dialect) (c : Char) : Bool :=
  plainTextChar c || (d ≠ .sqlserver && (c == '[' || c == ']'))

/-- The tokens of simple text. -/
def stoks : Str → List Tok
  | [] => []
  | c :: r =>
    if isSpace c then stoks r
    else if wordChar c then
      match stoks r with
      | .word w :: ts =>
        if r.head?.any wordChar then .word (c :: w) :: ts else .word [c] :: .word w :: ts
      | ts => .word [c] :: ts
    else .punct c :: stoks r

theorem stoks_word (c : Char) (r : Str) (h : wordChar c) :
    ∃ w ts, stoks (c :: r) = .word (c :: w) :: ts := by
  simp only [stoks, isSpace_wordChar c h, h, Bool.false_eq_true, if_false, if_true]
  split
  · split <;> simp
  · simp

theorem lex_word_cons (d : Dialect) (c e : Char) (x : Str) (hc : wordChar c) (he : wordChar e) :
    lex d (c :: e :: x) = (lex d (e :: x)).map fun ts =>
      match ts with
      | .word w :: r => .word (c :: w) :: r
      | ts => ts := by
  rw [lex_cons d c, lex_cons d e]
  simp [lexOne, isSpace_wordChar c hc, openQ_wordChar d c hc, quote_wordChar c hc, hc,
    isSpace_wordChar e he, openQ_wordChar d e he, quote_wordChar e he, he]
  rfl

theorem lex_simplePunct (d : Dialect) (c : Char) (r : Str) (h : simpleChar d c)
    (h1 : isSpace c = false) (h2 : wordChar c = false) :
    lex d (c :: r) = (lex d r).map (Tok.punct c :: ·) := by
  rw [lex_cons]
  have h3 : c ≠ openQ d ∧ c ≠ '\'' ∧ c ≠ '-' ∧ c ≠ '/' := by
    refine ⟨?_, ?_, ?_, ?_⟩ <;> intro e <;> subst e <;> revert h <;> cases d <;> decide
  simp [lexOne, h1, h2, h3]

theorem endsToken_simple (d : Dialect) (c : Char) (r : Str) (h : simpleChar d c)
    (h2 : wordChar c = false) : endsToken d (c :: r) := by
  refine ⟨h2, ?_⟩
  intro e; subst e; revert h; cases d <;> decide

theorem endsToken_word {d : Dialect} {rest : Str} (h : endsToken d rest) :
    ∀ c ∈ rest.head?, wordChar c = false := by
  cases rest with
  | nil => simp
  | cons c r => simp [endsToken] at h; simp [h.1]

theorem lex_simple (d : Dialect) (s rest : Str) (h : s.all (simpleChar d))
    (hr : s.getLast?.any wordChar → endsToken d rest) :
    lex d (s ++ rest) = (lex d rest).map (stoks s ++ ·) := by
  induction s with
  | nil => cases e : lex d rest <;> simp [stoks, e]
  | cons c r ih =>
    simp only [List.all_cons, Bool.and_eq_true] at h
    by_cases hs : isSpace c
    · have hr' : r.getLast?.any wordChar → endsToken d rest := by
        intro hw; apply hr
        cases r with
        | nil => simp at hw
        | cons e r => simpa [List.getLast?_cons_cons] using hw
      rw [List.cons_append, lex_space d c _ hs, ih h.2 hr']
      simp [stoks, hs]
    · simp only [Bool.not_eq_true] at hs
      by_cases hw : wordChar c
      · cases r with
        | nil =>
          have he := hr (by simp [hw])
          have := lex_word d [c] rest (by simp) (by simp [hw]) (endsToken_word he)
          simp only [List.cons_append, List.nil_append] at this ⊢
          rw [this]
          simp [stoks, hs, hw]
        | cons e r =>
          have hr' : (e :: r).getLast?.any wordChar → endsToken d rest := by
            intro hw'; apply hr; simpa [List.getLast?_cons_cons] using hw'
          have ih' := ih h.2 hr'
          by_cases hwe : wordChar e
          · simp only [List.cons_append] at ih' ⊢
            rw [lex_word_cons d c e _ hw hwe, ih']
            obtain ⟨w, ts, e1⟩ := stoks_word e r hwe
            rw [show stoks (c :: e :: r) = .word (c :: e :: w) :: ts by
              rw [stoks, e1]; simp [hs, hw, hwe]]
            rw [e1]
            cases lex d rest <;> simp
          · simp only [Bool.not_eq_true] at hwe
            have := lex_word d [c] (e :: r ++ rest) (by simp) (by simp [hw]) (by simp [hwe])
            simp only [List.cons_append, List.nil_append] at this ih' ⊢
            rw [this, ih']
            have e2 : stoks (c :: e :: r) = .word [c] :: stoks (e :: r) := by
              rw [stoks]; simp only [hs, hw, Bool.false_eq_true, if_false, if_true]
              split
              · rename_i e1; simp [hwe, e1]
              · rfl
            rw [e2]
            cases lex d rest <;> simp
      · simp only [Bool.not_eq_true] at hw
        have hr' : r.getLast?.any wordChar → endsToken d rest := by
          intro hw'; apply hr
          cases r with
          | nil => simp at hw'
          | cons e r => simpa [List.getLast?_cons_cons] using hw'
        rw [List.cons_append, lex_simplePunct d c _ h.1 hs hw, ih h.2 hr']
        simp only [stoks, hs, hw, Bool.false_eq_true, if_false]
        cases lex d rest <;> simp

theorem simple_of_plain (d : Dialect) (s : Str) (h : s.all plainTextChar) : s.all (simpleChar d) := by
  simp only [List.all_eq_true] at h ⊢
  intro c hc; simp [simpleChar, h c hc]

/-- What follows does not continue a token. -/
def Sep (d : Dialect) (rest : Str) : Prop :=
  endsToken d rest ∧ rest.head? ≠ some '\'' ∧ rest.head? ≠ some '-' ∧ rest.head? ≠ some '*'

theorem sep_nil (d : Dialect) : Sep d [] := ⟨trivial, by simp, by simp, by simp⟩

theorem sep_simple (d : Dialect) (c : Char) (r : Str) (h : simpleChar d c)
    (h2 : wordChar c = false) : Sep d (c :: r) :=
  ⟨endsToken_simple d c r h h2, by
    intro e; simp at e; subst e; revert h; cases d <;> decide, by
    intro e; simp at e; subst e; revert h; cases d <;> decide, by
    intro e; simp at e; subst e; revert h; cases d <;> decide⟩

/-- A text that is read as these tokens if what follows does not continue a token. -/
def ReadsP (d : Dialect) (s : Str) (ts : List Tok) : Prop :=
  ∀ rest, Sep d rest → lex d (s ++ rest) = (lex d rest).map (ts ++ ·)

theorem ReadsTo.readsP {d : Dialect} {s : Str} {ts : List Tok} (h : ReadsTo d s ts) :
    ReadsP d s ts := fun rest hr => h rest hr.1

theorem Reads.readsP {d : Dialect} {s : Str} {ts : List Tok} (h : Reads d s ts) :
    ReadsP d s ts := fun rest _ => h rest

theorem Reads.append_p {d : Dialect} {s t : Str} {a b : List Tok} (h1 : Reads d s a)
    (h2 : ReadsP d t b) : ReadsP d (s ++ t) (a ++ b) := fun rest hr => by
  rw [List.append_assoc, h1, h2 _ hr]
  cases lex d rest <;> simp

/-- The text can follow any token. -/
def Open (d : Dialect) (s : Str) : Prop := ∀ rest, Sep d rest → Sep d (s ++ rest)

theorem open_nil (d : Dialect) : Open d [] := fun _ h => h

theorem Open.append {d : Dialect} {s t : Str} (h1 : Open d s) (h2 : Open d t) : Open d (s ++ t) :=
  fun rest h => by rw [List.append_assoc]; exact h1 _ (h2 _ h)

theorem open_lit_append (d : Dialect) (s t : Str) (h : s.all plainTextChar) (h0 : s ≠ [])
    (h1 : s.head?.any wordChar = false) : Open d (s ++ t) := by
  cases s with
  | nil => exact absurd rfl h0
  | cons c r =>
    simp at h h1
    intro rest _
    exact sep_simple d c _ (by simp [simpleChar, h.1]) h1

theorem open_lit (d : Dialect) (s : Str) (h : s.all plainTextChar)
    (h1 : s.head?.any wordChar = false) : Open d s := by
  by_cases h0 : s = []
  · subst h0; exact open_nil d
  · simpa using open_lit_append d s [] h h0 h1

/-- A text that can follow any token, and is read as `ts` if what follows does not continue a
token. -/
structure Piece (d : Dialect) (s : Str) (ts : List Tok) : Prop where
  reads : ReadsP d s ts
  opens : Open d s

theorem Piece.nil (d : Dialect) : Piece d [] [] := ⟨(Reads.nil d).readsP, open_nil d⟩

theorem ReadsP.piece {d : Dialect} {s t : Str} {a b : List Tok} (h1 : ReadsP d s a)
    (h2 : Piece d t b) : ReadsP d (s ++ t) (a ++ b) := fun rest hr => by
  rw [List.append_assoc, h1 _ (h2.opens _ hr), h2.reads _ hr]
  cases lex d rest <;> simp

theorem Piece.append {d : Dialect} {s t : Str} {a b : List Tok} (h1 : Piece d s a)
    (h2 : Piece d t b) : Piece d (s ++ t) (a ++ b) :=
  ⟨h1.reads.piece h2, h1.opens.append h2.opens⟩

/-- Literal text that ends outside of a word. -/
theorem reads_lit (d : Dialect) (s : Str) (h : s.all plainTextChar)
    (h1 : s.getLast?.any wordChar = false) : Reads d s (stoks s) := fun rest =>
  lex_simple d s rest (simple_of_plain d s h) (by simp [h1])

theorem readsP_simple (d : Dialect) (s : Str) (h : s.all (simpleChar d)) : ReadsP d s (stoks s) :=
  fun rest hr => lex_simple d s rest h fun _ => hr.1

theorem readsP_lit (d : Dialect) (s : Str) (h : s.all plainTextChar) : ReadsP d s (stoks s) :=
  readsP_simple d s (simple_of_plain d s h)

/-- Literal text that begins outside of a word, with its tokens. -/
def IsLit (s : Str) (ts : List Tok) : Prop :=
  s.all plainTextChar = true ∧ s.head?.any wordChar = false ∧ s ≠ [] ∧ stoks s = ts

instance (s : Str) (ts : List Tok) : Decidable (IsLit s ts) := by unfold IsLit; infer_instance

/-- Literal text that begins and ends outside of a word, with its tokens. -/
def IsGap (s : Str) (ts : List Tok) : Prop := IsLit s ts ∧ s.getLast?.any wordChar = false

instance (s : Str) (ts : List Tok) : Decidable (IsGap s ts) := by unfold IsGap; infer_instance

theorem Piece.lit (d : Dialect) (s : Str) (ts : List Tok) (h : IsLit s ts) : Piece d s ts := by
  obtain ⟨h1, h2, _, rfl⟩ := h
  exact ⟨readsP_lit d s h1, open_lit d s h1 h2⟩

/-- Literal text before something that is read as tokens. -/
theorem Piece.lit_then (d : Dialect) (s : Str) (us : List Tok) (t : Str) (ts : List Tok)
    (h : IsGap s us) (ht : ReadsP d t ts) : Piece d (s ++ t) (us ++ ts) := by
  obtain ⟨⟨h1, h2, h3, rfl⟩, h4⟩ := h
  exact ⟨(reads_lit d s h1 h4).append_p ht, open_lit_append d s t h1 h3 h2⟩

/-- Text that is read as tokens before literal text is a text that is read whatever follows. -/
theorem ReadsP.lit {d : Dialect} {s t : Str} {ts us : List Tok} (h : ReadsP d s ts)
    (ht : IsGap t us) : Reads d (s ++ t) (ts ++ us) := fun rest => by
  obtain ⟨⟨h1, h2, h3, rfl⟩, h4⟩ := ht
  have ho : Sep d (t ++ rest) := by
    cases t with
    | nil => exact absurd rfl h3
    | cons c r =>
      simp at h1 h2
      exact sep_simple d c _ (by simp [simpleChar, h1.1]) h2
  rw [List.append_assoc, h _ ho, reads_lit d t h1 h4 rest]
  cases lex d rest <;> simp

theorem readsP_ident (d : Dialect) (s : Str) : ReadsP d (quoteIdentifier d s) [identTok d s] :=
  (reads_ident d s).readsP

theorem lex_of_readsP {d : Dialect} {s : Str} {ts : List Tok} (h : ReadsP d s ts) :
    lex d s = some ts := by
  have := h [] (sep_nil d)
  simpa using this

/-- Text that is read as tokens has only one reading. -/
theorem ReadsP.unique {d : Dialect} {s : Str} {a b : List Tok} (h1 : ReadsP d s a)
    (h2 : ReadsP d s b) : a = b := by
  have := (lex_of_readsP h1).symm.trans (lex_of_readsP h2)
  simpa using this

/-- A string literal without quotes and backslashes inside. -/
theorem readsP_str (d : Dialect) (s : Str) (h : s.all fun c => c ≠ '\'' && c ≠ '\\') :
    ReadsP d ('\'' :: (s ++ ['\''])) [.str s] := by
  intro rest hr
  have hq : readString d (s ++ '\'' :: rest) = some (s, rest) := by
    have h1 : readMySQLString (s ++ '\'' :: rest) = some (s, rest) := by
      induction s with
      | nil =>
        cases rest with
        | nil => simp [readMySQLString]
        | cons c r => have := hr.2.1; simp at this; simp [readMySQLString, this]
      | cons c s ih =>
        simp at h
        have ih := ih (by simpa using h.2)
        cases e : s ++ '\'' :: rest with
        | nil => simp at e
        | cons x y =>
          rw [List.cons_append, e, readMySQLString]
          rw [e] at ih
          simp [h.1.1, h.1.2, ih]
    have h2 : readQuoted '\'' (s ++ '\'' :: rest) = some (s, rest) := by
      clear h1
      induction s with
      | nil =>
        cases rest with
        | nil => simp [readQuoted]
        | cons c r => have := hr.2.1; simp at this; simp [readQuoted, this]
      | cons c s ih =>
        simp at h
        have ih := ih (by simpa using h.2)
        cases e : s ++ '\'' :: rest with
        | nil => simp at e
        | cons x y =>
          rw [List.cons_append, e, readQuoted]
          rw [e] at ih
          simp [h.1.1, ih]
    cases d <;> simp [readString, h1, h2]
  rw [List.cons_append, lex_cons]
  have ho : '\'' ≠ openQ d := by cases d <;> decide
  have hs : isSpace '\'' = false := by decide
  simp only [List.append_assoc, List.cons_append, List.nil_append]
  simp [lexOne, hs, ho, hq]

/-! ## Upper case -/

/-- The upper case word. -/
def upTok : Tok → Tok
  | .word w => .word (toUpper w)
  | t => t

theorem wordChar_upperC (c : Char) : wordChar (upperC c) = wordChar c := by
  apply char_split (fun c => wordChar (upperC c) = wordChar c)
  · decide
  · intro c h; rw [upperC_big c (by omega)]

theorem simpleChar_upperC (d : Dialect) (c : Char) : simpleChar d (upperC c) = simpleChar d c := by
  apply char_split (fun c => simpleChar d (upperC c) = simpleChar d c)
  · cases d <;> decide
  · intro c h; rw [upperC_big c (by omega)]

theorem upperC_notWord (c : Char) (h : wordChar c = false) : upperC c = c := by
  revert h
  apply char_split (fun c => wordChar c = false → upperC c = c)
  · decide
  · intro c h _; rw [upperC_big c (by omega)]

theorem stoks_upper (s : Str) : stoks (toUpper s) = (stoks s).map upTok := by
  induction s with
  | nil => rfl
  | cons c r ih =>
    have e : toUpper (c :: r) = upperC c :: toUpper r := rfl
    rw [e, stoks, stoks, ih, isSpace_upperC, wordChar_upperC]
    have eh : (toUpper r).head?.any wordChar = r.head?.any wordChar := by
      cases r with
      | nil => rfl
      | cons x y => simp [toUpper, wordChar_upperC]
    by_cases hs : isSpace c
    · simp [hs]
    by_cases hw : wordChar c
    · simp only [hs, hw, if_true, Bool.false_eq_true, if_false, eh]
      cases hr : stoks r with
      | nil => simp [upTok, toUpper]
      | cons t ts =>
        cases t <;> simp [upTok, toUpper]
        split <;> simp [upTok, toUpper]
    · simp only [Bool.not_eq_true] at hw
      simp [hs, hw, upTok, upperC_notWord c hw]

theorem simple_upper (d : Dialect) (s : Str) (h : s.all (simpleChar d)) :
    (toUpper s).all (simpleChar d) := by
  simp only [toUpper, List.all_map, List.all_eq_true, Function.comp] at h ⊢
  intro c hc; rw [simpleChar_upperC]; exact h c hc

end SqlSpec
