import Verif.Spec.Lex
import Verif.Props.Quote

/-!
# Reading generated SQL text token by token
-/

namespace SqlSpec
open Go

theorem readQuoted_length (q : Char) (s v t : Str) (h : readQuoted q s = some (v, t)) :
    t.length < s.length := by
  fun_induction readQuoted q s generalizing v t <;> simp_all <;> grind

theorem readMySQLString_length (s v t : Str) (h : readMySQLString s = some (v, t)) :
    t.length < s.length := by
  fun_induction readMySQLString s generalizing v t <;> simp_all <;> grind

theorem readString_length (d : Dialect) (s v t : Str) (h : readString d s = some (v, t)) :
    t.length < s.length := by
  cases d <;> simp only [readString] at h
  all_goals first | exact readMySQLString_length s v t h | exact readQuoted_length _ s v t h

theorem skipBlock_length (s t : Str) (h : skipBlock s = some t) : t.length ≤ s.length := by
  fun_induction skipBlock s <;> simp_all <;> grind

theorem lexOne_length (d : Dialect) (c : Char) (r : Str) (o : Option Tok) (t : Str)
    (h : lexOne d c r = some (o, t)) : t.length ≤ r.length := by
  unfold lexOne at h
  split at h
  · simp at h; simp [h.2]
  split at h
  · simp only [Option.map_eq_some_iff, Prod.exists] at h
    obtain ⟨v, u, h1, h2⟩ := h
    have := readQuoted_length _ _ _ _ h1
    simp at h2; rw [← h2.2]; omega
  split at h
  · simp only [Option.map_eq_some_iff, Prod.exists] at h
    obtain ⟨v, u, h1, h2⟩ := h
    have := readString_length _ _ _ _ h1
    simp at h2; rw [← h2.2]; omega
  split at h
  · simp at h; rw [← h.2]; exact (List.dropWhile_suffix _).length_le
  split at h
  · simp at h; rw [← h.2]; exact (List.dropWhile_suffix _).length_le
  split at h
  · simp only [Option.map_eq_some_iff] at h
    obtain ⟨u, h1, h2⟩ := h
    have := skipBlock_length _ _ h1
    simp at h2 this; rw [← h2.2]; omega
  · simp at h; simp [h.2]

theorem lexN_enough (d : Dialect) (n : Nat) (s : Str) (h : s.length ≤ n) :
    lexN d n s = lexN d s.length s := by
  induction n using Nat.strongRecOn generalizing s with
  | _ n ih =>
    cases s with
    | nil => cases n <;> simp [lexN]
    | cons c r =>
      cases n with
      | zero => simp at h
      | succ n =>
        simp only [List.length_cons, lexN]
        cases e : lexOne d c r with
        | none => rfl
        | some p =>
          obtain ⟨o, t⟩ := p
          have hl := lexOne_length d c r o t e
          simp at h
          have h1 := ih n (by omega) t (by omega)
          cases o with
          | none =>
            simp only
            rw [h1]
            by_cases hn : r.length < n + 1
            · exact (ih r.length (by omega) t hl).symm
            · omega
          | some k =>
            simp only
            rw [h1, ih r.length (by omega) t hl]

/-- One step of the tokenizer. -/
theorem lex_cons (d : Dialect) (c : Char) (r : Str) :
    lex d (c :: r) = (lexOne d c r).bind fun p =>
      match p.1 with
      | some t => (lex d p.2).map (t :: ·)
      | none => lex d p.2 := by
  unfold lex
  simp only [List.length_cons, lexN]
  cases e : lexOne d c r with
  | none => rfl
  | some p =>
    obtain ⟨o, t⟩ := p
    have hl := lexOne_length d c r o t e
    cases o with
    | none => simp [lexN_enough d r.length t hl]
    | some k => simp [lexN_enough d r.length t hl]

@[simp] theorem lex_nil (d : Dialect) : lex d [] = some [] := rfl

theorem lex_space (d : Dialect) (c : Char) (r : Str) (h : isSpace c) : lex d (c :: r) = lex d r := by
  rw [lex_cons]; simp [lexOne, h]

theorem isSpace_wordChar (c : Char) (h : wordChar c) : isSpace c = false := by
  cases e : isSpace c with
  | false => rfl
  | true =>
    simp only [isSpace, Bool.or_eq_true, beq_iff_eq] at e
    rcases e with ((((e | e) | e) | e) | e) | e <;> subst e <;> revert h <;> decide

theorem openQ_wordChar (d : Dialect) (c : Char) (h : wordChar c) : c ≠ openQ d := by
  intro e; subst e; cases d <;> revert h <;> decide

theorem openQ_space (d : Dialect) : isSpace (openQ d) = false := by cases d <;> decide

theorem quote_wordChar (c : Char) (h : wordChar c) : c ≠ '\'' := by
  intro e; subst e; revert h; decide

theorem takeWhile_stop {p : Char → Bool} (w rest : Str) (hw : w.all p)
    (hr : ∀ c ∈ rest.head?, p c = false) :
    (w ++ rest).takeWhile p = w ∧ (w ++ rest).dropWhile p = rest := by
  induction w with
  | nil =>
    cases rest with
    | nil => simp
    | cons c r => simp at hr; simp [hr]
  | cons c w ih =>
    simp only [List.all_cons, Bool.and_eq_true] at hw
    simp [hw.1, ih hw.2]

theorem lex_word (d : Dialect) (w rest : Str) (h0 : w ≠ []) (hw : w.all wordChar)
    (hr : ∀ c ∈ rest.head?, wordChar c = false) :
    lex d (w ++ rest) = (lex d rest).map (Tok.word w :: ·) := by
  cases w with
  | nil => exact absurd rfl h0
  | cons c w =>
    simp only [List.all_cons, Bool.and_eq_true] at hw
    obtain ⟨h1, h2⟩ := takeWhile_stop w rest hw.2 hr
    rw [List.cons_append, lex_cons]
    simp [lexOne, isSpace_wordChar c hw.1, openQ_wordChar d c hw.1, quote_wordChar c hw.1, hw.1,
      h1, h2]

/-- A punctuation character that does not begin a comment or a quoted token. -/
theorem lex_punct (d : Dialect) (c : Char) (r : Str)
    (h : c = ';' ∨ c = '.' ∨ c = ',' ∨ c = '(' ∨ c = ')' ∨ c = '=') :
    lex d (c :: r) = (lex d r).map (Tok.punct c :: ·) := by
  rw [lex_cons]
  have h1 : isSpace c = false := by rcases h with h | h | h | h | h | h <;> subst h <;> decide
  have h2 : c ≠ openQ d := by
    rcases h with h | h | h | h | h | h <;> subst h <;> cases d <;> decide
  have h3 : c ≠ '\'' ∧ wordChar c = false ∧ c ≠ '-' ∧ c ≠ '/' := by
    rcases h with h | h | h | h | h | h <;> subst h <;> decide
  simp [lexOne, h1, h2, h3]

theorem lex_semi (d : Dialect) (r : Str) : lex d (';' :: r) = (lex d r).map (Tok.punct ';' :: ·) :=
  lex_punct d _ r (by simp)
theorem lex_dot (d : Dialect) (r : Str) : lex d ('.' :: r) = (lex d r).map (Tok.punct '.' :: ·) :=
  lex_punct d _ r (by simp)
theorem lex_comma (d : Dialect) (r : Str) : lex d (',' :: r) = (lex d r).map (Tok.punct ',' :: ·) :=
  lex_punct d _ r (by simp)
theorem lex_lpar (d : Dialect) (r : Str) : lex d ('(' :: r) = (lex d r).map (Tok.punct '(' :: ·) :=
  lex_punct d _ r (by simp)
theorem lex_rpar (d : Dialect) (r : Str) : lex d (')' :: r) = (lex d r).map (Tok.punct ')' :: ·) :=
  lex_punct d _ r (by simp)

theorem lex_quoted (d : Dialect) (r v t : Str) (h : readQuoted (closeQ d) r = some (v, t)) :
    lex d (openQ d :: r) = (lex d t).map (Tok.quoted v :: ·) := by
  rw [lex_cons]
  simp [lexOne, openQ_space, h]

theorem statements_append (xs rest : List Tok) (h : Tok.punct ';' ∉ xs) :
    statements (xs ++ Tok.punct ';' :: rest) = xs :: statements rest := by
  induction xs with
  | nil => simp [statements]
  | cons t xs ih =>
    simp at h
    simp [statements, ih h.2, Ne.symm h.1]

end SqlSpec

namespace Sqddl
open SqlSpec Go

/-- The token as which a name written with `quoteIdentifier` is read. -/
def identTok (d : Dialect) (s : Str) : Tok :=
  if needsQuoting d s then .quoted (collapse (closeQuote d) s) else .word s

instance (q : Char) (s : Str) : Decidable (HasInnerPair q s) :=
  decidable_of_iff (collapse q s ≠ s) (by rw [ne_eq, collapse_eq_iff, Classical.not_not])

instance (d : Dialect) (s : Str) : Decidable (PlainName d s) := by unfold PlainName; infer_instance

theorem unquoted_facts (d : Dialect) (s : Str) (h : needsQuoting d s = false) :
    s ≠ [] ∧ s.all wordChar ∧ (∀ c ∈ s.head?, isDigit c = false) ∧ toLower s ∉ keywords d := by
  have e : quoteIdentifier d s = s := by simp [quoteIdentifier, h]
  rcases (quoteIdentifier_unquoted_iff d s).1 e with hp | ⟨h1, h2, h3, h4⟩
  · obtain ⟨k1, k2, k3, k4⟩ := pseudo_facts s hp
    exact ⟨k1, k2, k3, k4 d⟩
  · have ha : s.all plainChar = true := by
      simp only [List.all_eq_true]
      intro c hc
      have := h2 c hc
      simp [plainChar]; grind
    refine ⟨h1, ?_, ?_, ?_⟩
    · simp only [List.all_eq_true] at ha ⊢
      exact fun c hc => plainChar_wordChar (ha c hc)
    · intro c hc
      have := h3 c hc
      simp [isDigit] at *; grind
    · rw [toLower_plain ha]; exact h4

theorem openQuote_eq (d : Dialect) : openQuote d = openQ d := by cases d <;> rfl
theorem closeQuote_eq (d : Dialect) : closeQuote d = closeQ d := by cases d <;> rfl

/-- A name written with `quoteIdentifier` is read as one token. -/
theorem lex_ident (d : Dialect) (s rest : Str) (h : endsToken d rest) :
    lex d (quoteIdentifier d s ++ rest) = (lex d rest).map (identTok d s :: ·) := by
  have hr : ∀ c ∈ rest.head?, wordChar c = false := by
    cases rest with
    | nil => simp
    | cons c r => simp [endsToken] at h; simp [h.1]
  have hq : rest.head? ≠ some (closeQuote d) := by
    cases rest with
    | nil => simp
    | cons c r =>
      simp [endsToken] at h
      intro e; simp at e; subst e
      cases d <;> simp [closeQuote] at h
  by_cases hn : needsQuoting d s = true
  · simp only [quoteIdentifier, identTok, hn, if_true, List.cons_append, List.append_assoc,
      List.nil_append, openQuote_eq]
    apply lex_quoted
    rw [← closeQuote_eq]
    exact readQuoted_escapeQuote _ _ _ hq
  · simp only [Bool.not_eq_true] at hn
    obtain ⟨k1, k2, _, _⟩ := unquoted_facts d s hn
    simp only [quoteIdentifier, identTok, hn, Bool.false_eq_true, if_false]
    exact lex_word d s rest k1 k2 hr

theorem nameOf_identTok (d : Dialect) (s : Str) (h : PlainName d s) :
    nameOf d (keywords d) (identTok d s) = some s := by
  by_cases hn : needsQuoting d s = true
  · simp only [identTok, hn, if_true, nameOf]
    have := (collapse_eq_iff (closeQuote d) s).2 (by rw [closeQuote_eq]; exact h.1)
    rw [this]
  · simp only [Bool.not_eq_true] at hn
    obtain ⟨k1, k2, k3, k4⟩ := unquoted_facts d s hn
    simp only [identTok, hn, Bool.false_eq_true, if_false, nameOf]
    have e : quoteIdentifier d s = s := by simp [quoteIdentifier, hn]
    have hf : foldName d s = s := by
      by_cases hd : d = .postgres
      · subst hd
        rcases (quoteIdentifier_unquoted_iff _ s).1 e with hp | ⟨_, h2, _, _⟩
        · exact absurd hp (h.2 rfl)
        · apply toLower_plain
          simp only [List.all_eq_true]
          intro c hc
          have := h2 c hc
          simp [plainChar]; grind
      · cases d <;> simp_all [foldName]
    have h0 : s.head?.any isDigit = false := by
      cases s with
      | nil => simp
      | cons c r => simpa using k3
    simp [h0, k4, hf]

theorem identTok_not_punct (d : Dialect) (s : Str) (c : Char) : identTok d s ≠ .punct c := by
  unfold identTok; split <;> simp

end Sqddl

namespace SqlSpec
open Go Sqddl

/-- A text that is read as these tokens whatever follows it. -/
def Reads (d : Dialect) (s : Str) (ts : List Tok) : Prop :=
  ∀ rest, lex d (s ++ rest) = (lex d rest).map (ts ++ ·)

/-- A text that is read as these tokens if a token can end after it. -/
def ReadsTo (d : Dialect) (s : Str) (ts : List Tok) : Prop :=
  ∀ rest, endsToken d rest → lex d (s ++ rest) = (lex d rest).map (ts ++ ·)

theorem Reads.nil (d : Dialect) : Reads d [] [] := fun rest => by cases h : lex d rest <;> simp [h]

theorem Reads.append {d : Dialect} {s t : Str} {a b : List Tok} (h1 : Reads d s a)
    (h2 : Reads d t b) : Reads d (s ++ t) (a ++ b) := fun rest => by
  rw [List.append_assoc, h1, h2]
  cases lex d rest <;> simp

theorem Reads.to {d : Dialect} {s : Str} {a : List Tok} (h : Reads d s a) : ReadsTo d s a :=
  fun rest _ => h rest

theorem ReadsTo.append {d : Dialect} {s t : Str} {a b : List Tok} (h1 : ReadsTo d s a)
    (h2 : Reads d t b) (e : ∀ rest, endsToken d (t ++ rest)) : Reads d (s ++ t) (a ++ b) :=
  fun rest => by
  rw [List.append_assoc, h1 _ (e rest), h2]
  cases lex d rest <;> simp

theorem ReadsTo.append_to {d : Dialect} {s t : Str} {a b : List Tok} (h1 : ReadsTo d s a)
    (h2 : ReadsTo d t b) (e : ∀ rest, endsToken d rest → endsToken d (t ++ rest)) :
    ReadsTo d (s ++ t) (a ++ b) :=
  fun rest hr => by
  rw [List.append_assoc, h1 _ (e rest hr), h2 _ hr]
  cases lex d rest <;> simp

theorem Reads.append_to {d : Dialect} {s t : Str} {a b : List Tok} (h1 : Reads d s a)
    (h2 : ReadsTo d t b) : ReadsTo d (s ++ t) (a ++ b) :=
  fun rest hr => by
  rw [List.append_assoc, h1, h2 _ hr]
  cases lex d rest <;> simp

theorem Reads.flatMap {α : Type} {d : Dialect} (f : α → Str) (g : α → List Tok) (xs : List α)
    (h : ∀ x ∈ xs, Reads d (f x) (g x)) : Reads d (xs.flatMap f) (xs.flatMap g) := by
  induction xs with
  | nil => exact Reads.nil d
  | cons x xs ih =>
    simp only [List.flatMap_cons]
    exact (h x (by simp)).append (ih fun y hy => h y (by simp [hy]))

theorem endsToken_space (d : Dialect) (s : Str) : endsToken d (' ' :: s) := by
  cases d <;> exact ⟨by decide, by decide⟩

theorem endsToken_punct (d : Dialect) (c : Char) (s : Str)
    (h : c = ';' ∨ c = '.' ∨ c = ',' ∨ c = '(' ∨ c = ')' ∨ c = '\n') : endsToken d (c :: s) := by
  rcases h with h | h | h | h | h | h <;> subst h <;> cases d <;> exact ⟨by decide, by decide⟩

/-- Words, each followed by a space. -/
def words (ws : List Str) : Str := ws.flatMap fun w => w ++ [' ']

theorem reads_word (d : Dialect) (w : Str) (h0 : w ≠ []) (hw : w.all wordChar) :
    ReadsTo d w [.word w] := fun rest hr => by
  have hr' : ∀ c ∈ rest.head?, wordChar c = false := by
    cases rest with
    | nil => simp
    | cons c r => simp [endsToken] at hr; simp [hr.1]
  rw [lex_word d w rest h0 hw hr']
  cases lex d rest <;> simp

theorem reads_space (d : Dialect) (c : Char) (h : isSpace c) : Reads d [c] [] := fun rest => by
  rw [List.cons_append, List.nil_append, lex_space d c rest h]
  cases lex d rest <;> simp

theorem reads_punct (d : Dialect) (c : Char)
    (h : c = ';' ∨ c = '.' ∨ c = ',' ∨ c = '(' ∨ c = ')' ∨ c = '=') :
    Reads d [c] [.punct c] := fun rest => by
  rw [List.cons_append, List.nil_append, lex_punct d c rest h]
  cases lex d rest <;> simp

theorem reads_words (d : Dialect) (ws : List Str) (h : ∀ w ∈ ws, w ≠ [] ∧ w.all wordChar) :
    Reads d (words ws) (ws.map Tok.word) := by
  have : ws.map Tok.word = ws.flatMap fun w => [Tok.word w] ++ [] := by
    induction ws <;> simp_all
  rw [this]
  unfold words
  apply Reads.flatMap
  intro w hw
  exact (reads_word d w (h w hw).1 (h w hw).2).append (reads_space d ' ' (by decide))
    (fun rest => endsToken_space d _)

theorem reads_ident (d : Dialect) (s : Str) : ReadsTo d (quoteIdentifier d s) [identTok d s] :=
  fun rest hr => by rw [lex_ident d s rest hr]; cases lex d rest <;> simp

theorem lex_of_reads {d : Dialect} {s : Str} {ts : List Tok} (h : Reads d s ts) :
    lex d s = some ts := by
  have := h []
  simpa using this

end SqlSpec
