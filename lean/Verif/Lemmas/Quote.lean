import Verif.Model.Quote
import Verif.Spec.Sql

namespace Sqddl
open SqlSpec

/-- The value read back from an escaped text. -/
def collapse (q : Char) : Str → Str
  | [] => []
  | [c] => [c]
  | [c, d] => [c, d]
  | c :: d :: e :: r =>
    if c = q ∧ d = q then q :: collapse q (e :: r) else c :: collapse q (d :: e :: r)

theorem readQuoted_cons_ne {q c : Char} {s : Str} (h : c ≠ q) :
    readQuoted q (c :: s) = (readQuoted q s).map fun (v, t) => (c :: v, t) := by
  cases s with
  | nil => simp [readQuoted, h]
  | cons d r => simp [readQuoted, h]

theorem readQuoted_pair {q : Char} {s : Str} :
    readQuoted q (q :: q :: s) = (readQuoted q s).map fun (v, t) => (q :: v, t) := by
  simp [readQuoted]

theorem readQuoted_end {q : Char} {rest : Str} (h : rest.head? ≠ some q) :
    readQuoted q (q :: rest) = some ([], rest) := by
  cases rest with
  | nil => simp [readQuoted]
  | cons d r => simp at h; simp [readQuoted, h]

theorem readQuoted_escapeQuote (q : Char) (s rest : Str) (h : rest.head? ≠ some q) :
    readQuoted q (escapeQuote q s ++ q :: rest) = some (collapse q s, rest) := by
  fun_induction escapeQuote q s with
  | case1 => simp [readQuoted_end h, collapse]
  | case2 => simp [readQuoted_pair, readQuoted_end h, collapse]
  | case3 c hc => simp [readQuoted_cons_ne hc, readQuoted_end h, collapse]
  | case4 d ih => simp [readQuoted_pair, ih, collapse]
  | case5 c d hc ih => simp [readQuoted_cons_ne hc, ih, collapse]
  | case6 e r ih => simp [readQuoted_pair, ih, collapse]
  | case7 d e r hd ih => simp [readQuoted_pair, ih, collapse, hd]
  | case8 c d e r hc ih => simp [readQuoted_cons_ne hc, ih, collapse, hc]

theorem collapse_length_le (q : Char) (s : Str) : (collapse q s).length ≤ s.length := by
  fun_induction collapse q s <;> simp_all <;> omega

theorem collapse_eq_iff (q : Char) (s : Str) : collapse q s = s ↔ ¬ HasInnerPair q s := by
  fun_induction collapse q s with
  | case1 => simp [HasInnerPair]
  | case2 c =>
    simp only [HasInnerPair, true_iff, not_exists]
    intro a c b h
    have := congrArg List.length h; simp at this; omega
  | case3 c d =>
    simp only [HasInnerPair, true_iff, not_exists]
    intro a c b h
    have := congrArg List.length h; simp at this; omega
  | case4 c d e r h ih =>
    obtain ⟨rfl, rfl⟩ := h
    constructor
    · intro h
      have h1 := congrArg List.length h
      have := collapse_length_le d (e :: r)
      simp at h1 this; omega
    · intro h
      exact absurd ⟨[], e, r, rfl⟩ h
  | case5 c d e r h ih =>
    simp only [List.cons.injEq, true_and, ih]
    apply not_congr
    constructor
    · rintro ⟨a, x, b, hb⟩
      exact ⟨c :: a, x, b, by simp [hb]⟩
    · rintro ⟨a, x, b, hb⟩
      cases a with
      | nil => simp at hb; exact absurd ⟨hb.1, hb.2.1⟩ h
      | cons y a => simp at hb; exact ⟨a, x, b, hb.2⟩

theorem escapeQuote_length (q : Char) (s : Str) : s.length ≤ (escapeQuote q s).length := by
  fun_induction escapeQuote q s <;> simp_all <;> omega

/-- Without an inner pair `EscapeQuote` is plain doubling. -/
def doubleAll (q : Char) : Str → Str
  | [] => []
  | c :: r => if c = q then q :: q :: doubleAll q r else c :: doubleAll q r

theorem escapeQuote_eq_doubleAll (q : Char) (s : Str) (h : ¬ HasInnerPair q s) :
    escapeQuote q s = doubleAll q s := by
  have tl : ∀ (c : Char) (t : Str), ¬ HasInnerPair q (c :: t) → ¬ HasInnerPair q t := by
    rintro c t hn ⟨a, x, b, hb⟩
    exact hn ⟨c :: a, x, b, by simp [hb]⟩
  fun_induction escapeQuote q s with
  | case1 => rfl
  | case2 => simp [doubleAll]
  | case3 c hc => simp [doubleAll, hc]
  | case4 d ih => rw [doubleAll]; simp [ih (tl _ _ h)]
  | case5 c d hc ih => rw [doubleAll]; simp [hc, ih (tl _ _ h)]
  | case6 e r ih => exact absurd ⟨[], e, r, rfl⟩ h
  | case7 d e r hd ih => rw [doubleAll]; simp [ih (tl _ _ h)]
  | case8 c d e r hc ih => rw [doubleAll]; simp [hc, ih (tl _ _ h)]

theorem plainChar_wordChar {c : Char} (h : plainChar c = true) : wordChar c = true := by
  simp [plainChar, wordChar] at *; grind

theorem takeWhile_append_stop {p : Char → Bool} {s rest : Str} (h : s.all p)
    (hr : ∀ c ∈ rest.head?, p c = false) :
    (s ++ rest).takeWhile p = s ∧ (s ++ rest).dropWhile p = rest := by
  induction s with
  | nil =>
    cases rest with
    | nil => simp
    | cons c r => simp at hr; simp [hr]
  | cons c s ih =>
    simp at h
    simp [h.1]
    exact ih (by simpa using h.2)

theorem toLower_plain {s : Str} (h : s.all plainChar) : Go.toLower s = s := by
  unfold Go.toLower
  induction s with
  | nil => rfl
  | cons c s ih =>
    simp at h
    simp only [List.map_cons, ih (by simpa using h.2), List.cons.injEq, and_true]
    have hc := h.1
    unfold Go.lowerC
    split
    · rename_i hh
      exfalso
      have e : ∀ a b : Char, a ≤ b ↔ a.toNat ≤ b.toNat := fun a b => by
        simp [Char.le_def, UInt32.le_iff_toNat_le]
      simp only [plainChar, Bool.or_eq_true, beq_iff_eq, Bool.and_eq_true, decide_eq_true_eq, e] at hc hh
      rcases hc with (hc | hc) | hc
      · subst hc; revert hh; decide
      · have : ('9').toNat = 57 := rfl
        have : ('A').toNat = 65 := rfl
        omega
      · have : ('a').toNat = 97 := rfl
        have : ('Z').toNat = 90 := rfl
        omega
    · rfl

end Sqddl
