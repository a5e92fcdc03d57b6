import Verif.Lemmas.Piece
import Verif.Spec.Fragment

/-!
# Fragments of SQL are read the same way wherever they stand
-/

namespace SqlSpec
open Go Sqddl

theorem readQuoted_append (q : Char) (s x v t : Str) (h : readQuoted q s = some (v, t))
    (hx : t = [] → x.head? ≠ some q) : readQuoted q (s ++ x) = some (v, t ++ x) := by
  fun_induction readQuoted q s generalizing v t with
  | case1 => cases h
  | case2 =>
    simp at h
    obtain ⟨rfl, rfl⟩ := h
    cases x with
    | nil => simp [readQuoted]
    | cons y x => have := hx rfl; simp at this; simp [readQuoted, this]
  | case3 c hc => cases h
  | case4 r ih =>
    simp only [Option.map_eq_some_iff] at h
    obtain ⟨⟨v', t'⟩, h1, h2⟩ := h
    simp at h2
    obtain ⟨rfl, rfl⟩ := h2
    simp [readQuoted, ih _ _ h1 hx]
  | case5 d r hd =>
    simp at h
    obtain ⟨rfl, rfl⟩ := h
    simp [readQuoted, hd]
  | case6 c d r hc ih =>
    simp only [Option.map_eq_some_iff] at h
    obtain ⟨⟨v', t'⟩, h1, h2⟩ := h
    simp at h2
    obtain ⟨rfl, rfl⟩ := h2
    have := ih _ _ h1 hx
    simp only [List.cons_append] at this
    simp [readQuoted, hc, this]

theorem readMySQLString_append (s x v t : Str) (h : readMySQLString s = some (v, t))
    (hx : t = [] → x.head? ≠ some '\'') : readMySQLString (s ++ x) = some (v, t ++ x) := by
  fun_induction readMySQLString s generalizing v t with
  | case1 => cases h
  | case2 =>
    simp at h
    obtain ⟨rfl, rfl⟩ := h
    cases x with
    | nil => simp [readMySQLString]
    | cons y x => have := hx rfl; simp at this; simp [readMySQLString, this]
  | case3 c hc => cases h
  | case4 r ih =>
    simp only [Option.map_eq_some_iff] at h
    obtain ⟨⟨v', t'⟩, h1, h2⟩ := h
    simp at h2
    obtain ⟨rfl, rfl⟩ := h2
    simp [readMySQLString, ih _ _ h1 hx]
  | case5 d r hd =>
    simp at h
    obtain ⟨rfl, rfl⟩ := h
    simp [readMySQLString, hd]
  | case6 d r hc e ih =>
    simp only [Option.map_eq_some_iff] at h
    obtain ⟨⟨v', t'⟩, h1, h2⟩ := h
    simp at h2
    obtain ⟨rfl, rfl⟩ := h2
    simp [readMySQLString, ih _ _ h1 hx, hc]
  | case7 c d r hc hb ih =>
    simp only [Option.map_eq_some_iff] at h
    obtain ⟨⟨v', t'⟩, h1, h2⟩ := h
    simp at h2
    obtain ⟨rfl, rfl⟩ := h2
    have := ih _ _ h1 hx
    simp only [List.cons_append] at this
    simp [readMySQLString, hc, hb, this]

theorem readString_append (d : Dialect) (s x v t : Str) (h : readString d s = some (v, t))
    (hx : t = [] → x.head? ≠ some '\'') : readString d (s ++ x) = some (v, t ++ x) := by
  cases d <;> first
    | exact readMySQLString_append s x v t h hx
    | exact readQuoted_append _ s x v t h hx

theorem skipBlock_append (s x t : Str) (h : skipBlock s = some t) :
    skipBlock (s ++ x) = some (t ++ x) := by
  fun_induction skipBlock s with
  | case1 => cases h
  | case2 => cases h
  | case3 c d r hc => simp at h; subst h; simp [skipBlock, hc]
  | case4 c d r hc ih =>
    have := ih h
    simp only [List.cons_append] at this
    simp [skipBlock, hc, this]

theorem takeWhile_append' (p : Char → Bool) (s x : Str) (hx : ∀ c ∈ x.head?, p c = false) :
    (s ++ x).takeWhile p = s.takeWhile p ∧ (s ++ x).dropWhile p = s.dropWhile p ++ x := by
  induction s with
  | nil => cases x with
    | nil => simp
    | cons c x => have := hx c rfl; simp [this]
  | cons c s ih =>
    by_cases h : p c
    · simp [h, ih]
    · simp [h]

theorem dropWhile_append_mem (p : Char → Bool) (s x : Str) (h : ∃ c ∈ s, p c = false) :
    (s ++ x).dropWhile p = s.dropWhile p ++ x := by
  induction s with
  | nil => simp at h
  | cons c s ih =>
    by_cases hc : p c
    · have : ∃ c ∈ s, p c = false := by
        obtain ⟨e, he, h1⟩ := h
        simp at he
        rcases he with rfl | he
        · simp [hc] at h1
        · exact ⟨e, he, h1⟩
      simp [hc, ih this]
    · simp [hc]

/-- One step of the tokenizer does not depend on what follows the text, unless a line comment is
open at its end. -/
theorem lexOne_append (d : Dialect) (c : Char) (r x : Str) (hx : Sep d x) (o : Option Tok) (t : Str)
    (h : lexOne d c r = some (o, t))
    (hc : ¬ (c = '-' ∧ r.head? = some '-' ∧ ∀ e ∈ r, e ≠ '\n')) :
    lexOne d c (r ++ x) = some (o, t ++ x) := by
  obtain ⟨h1, h2, h3, h4⟩ := hx
  have hq : x.head? ≠ some (closeQ d) := by
    cases x with
    | nil => simp
    | cons e x =>
      simp [endsToken] at h1
      intro e'; simp at e'; subst e'
      cases d <;> simp [closeQ] at h1
  have hw : ∀ e ∈ x.head?, wordChar e = false := by
    cases x with
    | nil => simp
    | cons e x => simp [endsToken] at h1; simp [h1.1]
  unfold lexOne at h ⊢
  by_cases k1 : isSpace c
  · rw [if_pos k1] at h ⊢
    simp at h; obtain ⟨rfl, rfl⟩ := h; rfl
  rw [if_neg k1] at h ⊢
  by_cases k2 : c = openQ d
  · rw [if_pos k2] at h ⊢
    simp only [Option.map_eq_some_iff] at h ⊢
    obtain ⟨⟨v, t'⟩, e1, e2⟩ := h
    simp at e2; obtain ⟨rfl, rfl⟩ := e2
    exact ⟨(v, t' ++ x), readQuoted_append _ _ _ _ _ e1 fun _ => hq, rfl⟩
  rw [if_neg k2] at h ⊢
  by_cases k3 : c = '\''
  · rw [if_pos k3] at h ⊢
    simp only [Option.map_eq_some_iff] at h ⊢
    obtain ⟨⟨v, t'⟩, e1, e2⟩ := h
    simp at e2; obtain ⟨rfl, rfl⟩ := e2
    exact ⟨(v, t' ++ x), readString_append d _ _ _ _ e1 fun _ => h2, rfl⟩
  rw [if_neg k3] at h ⊢
  by_cases k4 : wordChar c
  · rw [if_pos k4] at h ⊢
    rw [(takeWhile_append' wordChar r x hw).1, (takeWhile_append' wordChar r x hw).2]
    simp at h; obtain ⟨rfl, rfl⟩ := h; rfl
  rw [if_neg k4] at h ⊢
  have hr : ∀ e, x.head? ≠ some e → ((r ++ x).head? = some e ↔ r.head? = some e) := by
    intro e he; cases r <;> simp [he]
  by_cases k5 : c = '-' ∧ r.head? = some '-'
  · have k5' : c = '-' ∧ (r ++ x).head? = some '-' := ⟨k5.1, (hr '-' h3).2 k5.2⟩
    rw [if_pos k5] at h
    rw [if_pos k5']
    simp at h; obtain ⟨rfl, rfl⟩ := h
    have : ∃ e ∈ r, (e != '\n') = false := by
      apply Classical.byContradiction
      intro hn
      apply hc
      refine ⟨k5.1, k5.2, fun e he e' => hn ⟨e, he, by simp [e']⟩⟩
    rw [dropWhile_append_mem _ _ _ this]
  have k5' : ¬ (c = '-' ∧ (r ++ x).head? = some '-') := fun e => k5 ⟨e.1, (hr '-' h3).1 e.2⟩
  rw [if_neg k5] at h
  rw [if_neg k5']
  by_cases k6 : c = '/' ∧ r.head? = some '*'
  · have k6' : c = '/' ∧ (r ++ x).head? = some '*' := ⟨k6.1, (hr '*' h4).2 k6.2⟩
    rw [if_pos k6] at h
    rw [if_pos k6']
    simp only [Option.map_eq_some_iff] at h ⊢
    obtain ⟨t', e1, e2⟩ := h
    simp at e2; obtain ⟨rfl, rfl⟩ := e2
    refine ⟨t' ++ x, ?_, rfl⟩
    cases r with
    | nil => simp at k6
    | cons e r => exact skipBlock_append _ _ _ e1
  have k6' : ¬ (c = '/' ∧ (r ++ x).head? = some '*') := fun e => k6 ⟨e.1, (hr '*' h4).1 e.2⟩
  rw [if_neg k6] at h
  rw [if_neg k6']
  simp at h; obtain ⟨rfl, rfl⟩ := h; rfl

theorem lexOne_shorter (d : Dialect) (c : Char) (r : Str) (o : Option Tok) (t : Str)
    (h : lexOne d c r = some (o, t)) : t.length ≤ r.length := lexOne_length d c r o t h

theorem sep_semi (d : Dialect) : Sep d b!";" := sep_simple d ';' [] (by simp [simpleChar]; decide) (by decide)

theorem dropWhile_nil (p : Char → Bool) (s : Str) (h : ∀ c ∈ s, p c = true) :
    s.dropWhile p = [] := by
  induction s with
  | nil => rfl
  | cons c s ih => simp [h c (by simp), ih fun e he => h e (by simp [he])]

theorem reads_fragment (d : Dialect) (n : Nat) (s : Str) (ts : List Tok) (hn : s.length ≤ n)
    (h : lex d s = some ts) (h2 : lex d (s ++ b!";") = some (ts ++ [.punct ';'])) :
    ReadsP d s ts := by
  induction n generalizing s ts with
  | zero =>
    have : s = [] := by cases s <;> simp at hn ⊢
    subst this
    simp [lex, lexN] at h; subst h
    exact (Reads.nil d).readsP
  | succ n ih =>
    cases s with
    | nil =>
      simp [lex, lexN] at h; subst h
      exact (Reads.nil d).readsP
    | cons c r =>
      rw [lex_cons] at h
      cases e : lexOne d c r with
      | none => simp [e] at h
      | some p =>
        obtain ⟨o, t⟩ := p
        have hl := lexOne_shorter d c r o t e
        have hle : t.length ≤ n := by simp at hn; omega
        have hc : ¬ (c = '-' ∧ r.head? = some '-' ∧ ∀ e ∈ r, e ≠ '\n') := by
          rintro ⟨rfl, hr, hnl⟩
          have nq : '-' ≠ openQ d := by cases d <;> decide
          have k1 : isSpace '-' = false := by decide
          have k2 : wordChar '-' = false := by decide
          have hd1 : r.dropWhile (· != '\n') = [] :=
            dropWhile_nil _ _ fun e he => by simpa using hnl e he
          have hd2 : (r ++ b!";").dropWhile (· != '\n') = [] := by
            apply dropWhile_nil
            intro e he
            simp at he
            rcases he with he | he
            · simpa using hnl e he
            · subst he; decide
          have hr2 : (r ++ b!";").head? = some '-' := by cases r <;> simp at hr ⊢; exact hr
          rw [List.cons_append, lex_cons] at h2
          simp only [lexOne, k1, nq, k2, Bool.false_eq_true, if_false, hr, hr2, and_self, if_true,
            hd1, hd2] at h h2
          simp [lex, lexN] at h h2
        have main : ∀ x, Sep d x → lex d (c :: r ++ x) =
            (lex d (t ++ x)).map (o.toList ++ ·) := by
          intro x hx
          rw [List.cons_append, lex_cons, lexOne_append d c r x hx o t e hc]
          cases o <;> simp
        rw [main _ (sep_semi d)] at h2
        simp only [e, Option.bind_some] at h
        cases o with
        | none =>
          simp only [Option.toList_none, List.nil_append, Option.map_id'] at h h2
          have := ih t ts hle h h2
          intro x hx
          rw [main x hx, this x hx]
          simp [Function.comp_def]
        | some k =>
          simp only [Option.map_eq_some_iff, Option.toList_some, List.cons_append,
            List.nil_append] at h h2
          obtain ⟨ts', e1, rfl⟩ := h
          obtain ⟨us, e2, e3⟩ := h2
          simp at e3
          have := ih t ts' hle e1 (by rw [e2, e3])
          intro x hx
          rw [main x hx]
          simp only [this x hx]
          cases lex d x <;> simp

/-- A fragment is read as its tokens wherever it stands. -/
theorem Fragment.readsP {d : Dialect} {s : Str} {ts : List Tok} (h : Fragment d s)
    (ht : lex d s = some ts) : ReadsP d s ts := by
  refine reads_fragment d s.length s ts (Nat.le_refl _) ht ?_
  unfold Fragment at h
  rw [h.2, ht]
  rfl

end SqlSpec
