import Verif.Spec.Sprintf
import Verif.Props.Session
import Verif.Spec.Sql

/-!
# C23: parameter substitution does not touch quoted text
-/

namespace Sqddl.Sprintf
open Go SprintfSpec Sqddl.Session

variable (d : Dialect) (hi : Char → Bool) (args : List Arg)

theorem opens_iff (c : Char) : opens d c = true ↔ c ∈ quotes d := by
  cases d <;> simp [opens, quotes, or_assoc]

theorem closing_eq (q : Char) : closing q = close q := rfl

theorem nameChar_eq (c : Char) : nameChar hi c = word hi c := by
  unfold nameChar word Char.isAlphanum
  split
  · rename_i h
    have : ¬ 128 ≤ c.toNat := by omega
    have hu : decide (c = '_') = (c == '_') := rfl
    cases c.isAlpha <;> cases c.isDigit <;> simp [this, hu]
  · rename_i h
    have h0 : 128 ≤ c.val.toNat := by
      have : ¬ c.val.toNat < 128 := h
      omega
    have h1 : c.isAlpha = false := by
      rw [Bool.eq_false_iff]
      intro hh
      simp only [Char.isAlpha, Char.isUpper, Char.isLower, Bool.or_eq_true, Bool.and_eq_true,
        decide_eq_true_eq, ge_iff_le, UInt32.le_iff_toNat_le] at hh
      have e1 : 'Z'.val.toNat = 90 := rfl
      have e2 : 'z'.val.toNat = 122 := rfl
      omega
    have h2 : c.isDigit = false := by
      rw [Bool.eq_false_iff]
      intro hh
      simp only [Char.isDigit, Bool.and_eq_true,
        decide_eq_true_eq, ge_iff_le, UInt32.le_iff_toNat_le] at hh
      have e1 : '9'.val.toNat = 57 := rfl
      omega
    have h3 : (c == '_') = false := by
      simp only [beq_eq_false_iff_ne]; rintro rfl; exact h (by decide)
    have : 128 ≤ c.toNat := by omega
    simp [h1, h2, h3, this]

theorem word_not_special (c : Char) (h : word hi c = true) :
    c ≠ '\'' ∧ c ≠ '"' ∧ c ≠ '`' ∧ c ≠ '[' ∧ c ≠ '?' ∧ c ≠ '$' ∧ c ≠ ':' ∧ c ≠ '@' := by
  refine ⟨?_, ?_, ?_, ?_, ?_, ?_, ?_, ?_⟩ <;>
    (rintro rfl; revert h; simp [word])

theorem word_not_opens (c : Char) (h : word hi c = true) : opens d c = false := by
  have := word_not_special hi c h
  simp [opens, this]

theorem digit_word (c : Char) (h : c.isDigit = true) : word hi c = true := by simp [word, h]

/-- A name is collected. -/
theorem scan_word (s t out w : Str) (k : Nat) (hw : w ≠ []) (hs : ∀ c ∈ s, word hi c = true) :
    scan d hi args (s ++ t) ⟨out, k, false, none, w⟩ =
      scan d hi args t ⟨out, k, false, none, w ++ s⟩ := by
  induction s generalizing w with
  | nil => simp
  | cons c r ih =>
    have hc := hs c (by simp)
    rw [List.cons_append, scan, step, word_not_opens d hi c hc]
    simp only [Bool.false_eq_true, if_false, Option.isSome_none, if_pos hw, hc, if_true]
    rw [ih _ (by simp) fun x hx => hs x (by simp [hx])]
    simp

/-- Quoted text is copied. -/
theorem scan_inside (q : Char) (s t out w : Str) (k : Nat) (ht : t.head? ≠ some (close q)) :
    scan d hi args (doubled (close q) s ++ close q :: t) ⟨out, k, false, some q, w⟩ =
      scan d hi args t ⟨out ++ doubled (close q) s ++ [close q], k, false, none, w⟩ := by
  induction s generalizing out with
  | nil =>
    simp only [doubled, List.flatMap_nil, List.nil_append, scan, step, List.append_nil]
    simp [closing_eq, ht]
  | cons c r ih =>
    by_cases hc : c = close q
    · subst hc
      simp only [doubled, List.flatMap_cons, if_true, List.cons_append, List.nil_append]
      rw [scan, step]
      simp only [closing_eq, Option.map_some, List.head?_cons, if_true, Bool.false_eq_true,
        if_false, Option.isSome_some]
      rw [scan, step]
      simp only [if_true]
      have := ih (out ++ [close q] ++ [close q])
      simp only [doubled] at this
      rw [this]
      simp
    · simp only [doubled, List.flatMap_cons, if_neg hc, List.cons_append, List.nil_append]
      rw [scan, step]
      have hne : ¬ (some c = some (close q)) := by simp [hc]
      simp only [closing_eq, Option.map_some, if_neg hne, Bool.false_eq_true, if_false,
        Option.isSome_some, if_true]
      have := ih (out ++ [c])
      simp only [doubled] at this
      rw [this]
      simp

theorem scan_quoted (q : Char) (s t out : Str) (k : Nat) (hq : q ∈ quotes d)
    (ht : t.head? ≠ some (close q)) :
    scan d hi args ((Piece.quoted q s).text d ++ t) ⟨out, k, false, none, []⟩ =
      scan d hi args t ⟨out ++ (Piece.quoted q s).text d, k, false, none, []⟩ := by
  simp only [Piece.text, List.cons_append, List.append_assoc, List.nil_append]
  rw [scan, step]
  simp only [(opens_iff d q).2 hq, Bool.false_eq_true, if_false, Option.isSome_none, if_true]
  rw [scan_inside d hi args q s t _ _ _ ht]
  simp

theorem getLast_filter (p : Arg → Bool) (l : List Arg) :
    (l.filter p).getLast? = l.reverse.find? p := by
  rw [← List.head?_reverse, ← List.filter_reverse, List.head?_filter]

theorem textOf_ok (v : Str) : textOf (.ok v) = some v := rfl

theorem textOf_litOf (o : Option Arg) : textOf (litOf o) = o.bind (·.literal) := by
  cases o with
  | none => rfl
  | some a => cases h : a.literal <;> simp [litOf, h, textOf]

theorem atoi_itoa (n : Nat) (h : n < 2 ^ 63) : atoi (itoa n) = some n := by
  have h1 : itoa n ≠ [] := Nat.toDigits_ne_nil
  have h2 := itoa_digits n
  have h3 : Nat.ofDigitChars 10 (itoa n) 0 = n := Nat.ofDigitChars_ten_toDigits
  unfold atoi
  rw [if_pos ⟨h1, h2, by rw [h3]; exact h⟩, h3]

theorem atoi_not_digits (s : Str) (h : ¬ s.all Char.isDigit = true) : atoi s = none := by
  unfold atoi
  rw [if_neg (fun h' => h h'.2.1)]

theorem maybeNum_sigil (sigil : Char) (s : Str)
    (h : d ≠ .sqlserver ∨ sigil ≠ '@' ∨ (s.head? ≠ some 'p' ∧ s.head? ≠ some 'P')) :
    maybeNum d (sigil :: s) = s := by
  unfold maybeNum
  rw [if_neg]
  · rfl
  · rintro ⟨h1, h2, h3⟩
    simp only [List.head?_cons, Option.some.injEq] at h1
    simp only [List.getElem?_cons_succ, ← List.head?_eq_getElem?] at h3
    rcases h with h | h | h
    · exact h h2
    · exact h h1
    · exact h3.elim h.1 h.2

/-- A parameter denotes its argument. -/
theorem lookup_value (sigil : Char) (p : Param) (k : Nat) (h : IsParam d hi sigil p) :
    textOf (lookupParam d args (paramText d sigil p) k) = value args k p := by
  cases p with
  | anon =>
    obtain ⟨rfl, hd⟩ := h
    change textOf (lookupParam d args b!"?" k) = _
    unfold lookupParam
    rw [if_pos (maybeNum_sigil d _ _ (by simp)), if_neg (by simp)]
    split
    · rw [textOf_litOf]; rfl
    · rename_i hk
      simp only [value, textOf]
      rw [List.getElem?_eq_none (by omega)]; rfl
  | ord n =>
    have hn : n < 2 ^ 63 := h.1
    have hm : maybeNum d (paramText d sigil (.ord n)) = itoa n := by
      simp only [paramText]
      split
      · rename_i hd
        subst hd
        have hs : sigil = '@' := h.2
        subst hs
        simp [maybeNum]
      · rename_i hd
        exact maybeNum_sigil d _ _ (.inl hd)
    unfold lookupParam
    rw [hm, if_neg (show itoa n ≠ [] from Nat.toDigits_ne_nil), atoi_itoa n hn]
    simp only [Option.elim_some, value]
    split
    · rfl
    · exact textOf_litOf _
  | named s =>
    obtain ⟨⟨h1, h2, h3, h4⟩, hs⟩ := h
    have hd : d ≠ .postgres ∧ d ≠ .mysql := by
      constructor <;> (rintro rfl; exact hs)
    have key : maybeNum d (sigil :: s) ≠ [] ∧ atoi (maybeNum d (sigil :: s)) = none := by
      by_cases hc : d ≠ .sqlserver ∨ sigil ≠ '@' ∨ (s.head? ≠ some 'p' ∧ s.head? ≠ some 'P')
      · rw [maybeNum_sigil d _ _ hc]
        exact ⟨h1, atoi_not_digits _ h3⟩
      · simp only [not_or, ne_eq, Decidable.not_not, not_and] at hc
        obtain ⟨rfl, rfl, hp⟩ := hc
        cases s with
        | nil => exact absurd rfl h1
        | cons c r =>
          have hcp : c = 'p' ∨ c = 'P' := by
            by_cases hcc : c = 'p'
            · exact .inl hcc
            · simp only [List.head?_cons, Option.some.injEq] at hp
              exact .inr (hp hcc)
          have hm : maybeNum .sqlserver ('@' :: c :: r) = r := by
            unfold maybeNum
            rw [if_pos]
            · rfl
            · refine ⟨rfl, rfl, ?_⟩
              simpa using hcp
          have hr := h4 rfl c (by simpa using hcp) r rfl
          rw [hm]
          refine ⟨?_, atoi_not_digits _ hr⟩
          rintro rfl
          exact hr rfl
    change textOf (lookupParam d args (sigil :: s) k) = _
    unfold lookupParam
    rw [if_neg key.1, key.2]
    simp only [Option.elim_none, hd, or_self, if_false, List.drop_succ_cons, List.drop_zero, value]
    rw [textOf_litOf, getLast_filter]
    rfl

theorem piece_text_head (p : Piece) (h : IsPiece d hi p) :
    ∃ c r, p.text d = c :: r ∧ ((∃ x, p = .plain x ∧ c = x ∧ r = []) ∨ c ∈ quotes d ∨ c ∈ sigils d) := by
  cases p with
  | plain c => exact ⟨c, [], rfl, .inl ⟨c, rfl, rfl, rfl⟩⟩
  | quoted q b => exact ⟨_, _, rfl, .inr (.inl h)⟩
  | param s p =>
    cases p with
    | anon =>
      refine ⟨s, _, rfl, .inr (.inr ?_)⟩
      obtain ⟨rfl, hd⟩ := h
      cases d <;> simp_all [sigils]
    | ord n =>
      have hs : s ∈ sigils d := by
        have := h.2
        cases d <;> simp_all [sigils]
      simp only [Piece.text, paramText]
      split
      · exact ⟨s, _, rfl, .inr (.inr hs)⟩
      · exact ⟨s, _, rfl, .inr (.inr hs)⟩
    | named n =>
      refine ⟨s, _, rfl, .inr (.inr ?_)⟩
      have := h.2
      cases d <;> simp_all [sigils]

theorem sigil_not_quote (c : Char) (h : c ∈ sigils d) : opens d c = false := by
  cases d <;> simp_all [sigils, opens] <;> rcases h with rfl | rfl | rfl | rfl <;> decide

/-- A parameter that is complete is replaced at the next character or at the end. -/
theorem pending (ps : List Piece) (out w : Str) (k : Nat) (hw : w ≠ []) (hq : IsQuery d hi ps)
    (hh : ∀ c ∈ (text d ps).head?, word hi c = false ∧ c ∉ quotes d ∧ c ∉ sigils d)
    (ih : ∀ p r out k, ps = p :: r →
      textOf (scan d hi args (text d r) ⟨out, k, false, none, []⟩) =
        (filled d args k r).map (out ++ ·)) :
    textOf (scan d hi args (text d ps) ⟨out, k, false, none, w⟩) =
      (textOf (lookupParam d args w k)).bind fun v =>
        (filled d args (if w = b!"?" then k + 1 else k) ps).map ((out ++ v) ++ ·) := by
  cases ps with
  | nil =>
    simp only [text, List.flatMap_nil, scan, finish, ne_eq, hw, not_false_eq_true, if_true, filled]
    cases lookupParam d args w k <;> simp [textOf]
  | cons p r =>
    obtain ⟨c, t, hpt, hc⟩ := piece_text_head d hi p hq.1
    have hcc := hh c (by simp [text, hpt])
    rcases hc with ⟨x, rfl, rfl, rfl⟩ | hc | hc
    · have ho : opens d c = false := by
        rw [← Bool.not_eq_true, opens_iff]; exact hcc.2.1
      rw [show text d (.plain c :: r) = c :: text d r from by simp [text, Piece.text], scan, step]
      simp only [ho, hcc.1, if_pos hw, Bool.false_eq_true, if_false, Option.isSome_none, filled]
      cases hl : lookupParam d args w k with
      | ok v =>
        simp only [Res.next, textOf_ok, Option.bind_some]
        rw [ih _ _ _ _ rfl]
        cases filled d args (if w = b!"?" then k + 1 else k) r <;> simp
      | error => simp [Res.next, textOf]
      | panic => simp [Res.next, textOf]
    · exact absurd hc hcc.2.1
    · exact absurd hc hcc.2.2

theorem paramText_split (sigil : Char) (p : Param) (h : IsParam d hi sigil p) :
    ∃ s, paramText d sigil p = sigil :: s ∧ (∀ c ∈ s, word hi c = true) ∧
      (sigil = '?' → (s = [] ↔ p = .anon)) := by
  have hdig : ∀ n, ∀ c ∈ itoa n, word hi c = true := fun n c hc =>
    digit_word hi c (List.all_eq_true.1 (itoa_digits n) c hc)
  cases p with
  | anon => exact ⟨[], rfl, by simp, by simp⟩
  | ord n =>
    simp only [paramText]
    split
    · refine ⟨'p' :: itoa n, rfl, ?_, by simp⟩
      intro c hc
      rcases List.mem_cons.1 hc with rfl | hc
      · simp [word]
      · exact hdig n c hc
    · exact ⟨itoa n, rfl, hdig n, by simp [show itoa n ≠ [] from Nat.toDigits_ne_nil]⟩
  | named s => exact ⟨s, rfl, fun c hc => nameChar_eq hi c ▸ h.1.2.1 c hc, by simp [h.1.1]⟩

theorem sigil_mem (sigil : Char) (p : Param) (h : IsParam d hi sigil p) : sigil ∈ sigils d := by
  cases p with
  | anon =>
    obtain ⟨rfl, hd⟩ := h
    cases d <;> simp_all [sigils]
  | ord n =>
    have := h.2
    cases d <;> simp_all [sigils]
  | named n =>
    have := h.2
    cases d <;> simp_all [sigils]

theorem param_sigil (sigil : Char) (p : Param) (h : IsParam d hi sigil p) :
    startsParam d sigil = true ∨ (sigil = '?' ∧ d ≠ .postgres) := by
  have hm := sigil_mem d hi sigil p h
  revert hm
  cases d <;> simp [sigils, startsParam]
  · rintro (rfl | rfl | rfl | rfl) <;> simp
  · rintro (rfl | rfl) <;> simp

theorem scan_filled (ps : List Piece) (out : Str) (k : Nat) (hq : IsQuery d hi ps) :
    textOf (scan d hi args (text d ps) ⟨out, k, false, none, []⟩) =
      (filled d args k ps).map (out ++ ·) := by
  induction hlen : ps.length using Nat.strongRecOn generalizing ps out k with
  | ind n ih =>
  subst hlen
  cases ps with
  | nil => simp [text, scan, finish, filled, textOf]
  | cons p r =>
    obtain ⟨hp, ha, hr⟩ := hq
    have ihr : ∀ out k, textOf (scan d hi args (text d r) ⟨out, k, false, none, []⟩) =
        (filled d args k r).map (out ++ ·) :=
      fun out k => ih r.length (by simp) r out k hr rfl
    rw [show text d (p :: r) = p.text d ++ text d r from by simp [text]]
    cases p with
    | plain c =>
      have ho : opens d c = false := by
        rw [← Bool.not_eq_true, opens_iff]; exact hp.1
      have hs : startsParam d c = false ∧ ¬ (c = '?' ∧ d ≠ .postgres) := by
        have := hp.2
        cases d <;> simp_all [startsParam, sigils]
      simp only [Piece.text, List.cons_append, List.nil_append]
      rw [scan, step]
      simp only [ho, hs.1, if_neg hs.2, Bool.false_eq_true, if_false, Option.isSome_none, ne_eq,
        not_true_eq_false, filled]
      rw [ihr]
      cases filled d args k r <;> simp
    | quoted q b =>
      rw [scan_quoted d hi args q b _ _ _ hp ha, ihr]
      simp only [filled]
      cases filled d args k r <;> simp
    | param sigil x =>
      obtain ⟨s, hs, hw, hq0⟩ := paramText_split d hi sigil x hp
      have hv := lookup_value d hi args sigil x k hp
      have hso : opens d sigil = false := sigil_not_quote d _ (sigil_mem d hi sigil x hp)
      have hbind : ∀ (a : Option Str) (k : Nat),
          (a.bind fun v => (filled d args k r).map ((out ++ v) ++ ·)) =
            (a.bind fun v => (filled d args k r).map (v ++ ·)).map (out ++ ·) := by
        intro a k
        cases a with
        | none => rfl
        | some v => cases filled d args k r <;> simp
      -- the parameter is collected first, or replaced at once
      by_cases himm : sigil = '?' ∧ d ≠ .sqlite
      · obtain ⟨rfl, hdl⟩ := himm
        have hx : x = .anon := by
          cases x with
          | anon => rfl
          | ord n => have := hp.2; cases d <;> simp_all
          | named n => have := hp.2; cases d <;> simp_all
        subst hx
        have hdp : d ≠ .postgres := hp.2
        have hsp : startsParam d '?' = false := by simp [startsParam]
        simp only [Piece.text, paramText, List.cons_append, List.nil_append]
        rw [scan, step]
        simp only [hso, hsp, hdl, hdp, Bool.false_eq_true, if_false, Option.isSome_none, ne_eq,
          not_true_eq_false, not_false_eq_true, and_self, if_true, filled, value]
        by_cases hk : args.length ≤ k
        · rw [if_pos hk, List.getElem?_eq_none hk]; rfl
        · rw [if_neg hk, ← textOf_litOf]
          cases hl : litOf args[k]? with
          | ok v =>
            simp only [Res.next, textOf_ok, Option.bind_some]
            rw [ihr]
            cases filled d args (k + 1) r <;> simp
          | error => simp [Res.next, textOf]
          | panic => simp [Res.next, textOf]
      · have hstart : scan d hi args ((Piece.param sigil x).text d ++ text d r) ⟨out, k, false, none, []⟩ =
            scan d hi args (text d r) ⟨out, k, false, none, sigil :: s⟩ := by
          rw [show (Piece.param sigil x).text d = sigil :: s from hs, List.cons_append, scan, step]
          simp only [hso, Bool.false_eq_true, if_false, Option.isSome_none, ne_eq, not_true_eq_false]
          rcases param_sigil d hi sigil x hp with h | ⟨rfl, hd⟩
          · rw [if_pos h]
            simp only
            rw [scan_word d hi args s _ _ _ _ (by simp) hw]
            simp
          · have hdl : d = .sqlite := by
              by_cases hd' : d = .sqlite
              · exact hd'
              · exact absurd ⟨rfl, hd'⟩ himm
            subst hdl
            rw [if_neg (by simp [startsParam]), if_pos (by simp), if_pos rfl]
            simp only
            rw [scan_word .sqlite hi args s _ _ _ _ (by simp) hw]
            simp
        rw [hstart]
        have happ : ∀ c ∈ (text d r).head?, word hi c = false ∧ c ∉ quotes d ∧ c ∉ sigils d := by
          rcases ha with h | h
          · exact absurd h himm
          · simpa only [nameChar_eq] using h
        rw [pending d hi args r out (sigil :: s) k (by simp) hr happ (by
          rintro p' r' out' k' rfl
          exact ih r'.length (by simp; omega) r' out' k' hr.2.2 rfl)]
        rw [← hs, hv, hbind]
        simp only [filled]
        have hk : (paramText d sigil x = b!"?") ↔ x = .anon := by
          rw [hs]
          constructor
          · intro h
            simp only [List.cons.injEq] at h
            exact (hq0 h.1).1 h.2
          · rintro rfl
            have := hp.1
            subst this
            simp [(hq0 rfl).2 rfl]
        by_cases hx : x = .anon
        · rw [if_pos (hk.2 hx), if_pos hx]
        · rw [if_neg (fun h => hx (hk.1 h)), if_neg hx]

/-- **C23**, for queries whose parameters are not directly followed by a quote or another parameter
(see `sprintf_adjacent_refuted`), with the quoting of standard SQL.  Quoted text and all other text is
copied, every parameter is replaced by the literal of its argument; no text comes out if an argument is
missing or has no literal. -/
theorem sprintf_filled_partial (ps : List Piece) (ha : args ≠ []) (hq : IsQuery d hi ps) :
    textOf (sprintf d hi (text d ps) args) = filled d args 0 ps := by
  unfold sprintf
  rw [if_neg ha]
  have := scan_filled d hi args ps [] 0 hq
  simp only [List.nil_append, Option.map_id'] at this
  exact this

/-- Without arguments the query is returned as it is. -/
theorem sprintf_no_args (q : Str) : sprintf d hi q [] = .ok q := by simp [sprintf]

/-! ## Crashes -/

/-- The anonymous parameters seen so far. -/
def seen (st : St) : Nat := st.running + if st.param.head? = some '?' then 1 else 0

theorem litOf_no_panic (o : Option Arg) : litOf o ≠ .panic := by
  cases o with
  | none => simp [litOf]
  | some a => cases h : a.literal <;> simp [litOf, h]

theorem lookup_panic (p : Str) (k : Nat) (h : lookupParam d args p k = .panic) :
    p.head? = some '?' ∧ args.length ≤ k := by
  unfold lookupParam at h
  split at h
  · split at h
    · cases h
    · rename_i h1
      split at h
      · exact absurd h (litOf_no_panic _)
      · exact ⟨Decidable.not_not.1 h1, by omega⟩
  · cases h' : atoi (maybeNum d p) with
    | none =>
      rw [h'] at h
      simp only [Option.elim_none] at h
      split at h
      · cases h
      · exact absurd h (litOf_no_panic _)
    | some n =>
      rw [h'] at h
      simp only [Option.elim_some] at h
      split at h
      · cases h
      · exact absurd h (litOf_no_panic _)

/-- What a round does to the number of anonymous parameters seen. -/
def Seen (c : Char) (st : St) : Except Res St → Prop
  | .ok st' => seen st' ≤ seen st + (if c = '?' then 1 else 0) ∧
      (st'.param.head? = some '?' → d = .sqlite)
  | .error .panic => d = .sqlite ∧ args.length < seen st
  | .error _ => True

theorem step_seen (c : Char) (next : Option Char) (st : St)
    (hinv : st.param.head? = some '?' → d = .sqlite) :
    Seen d args c st (step d hi args c next st) := by
  unfold step
  split
  · exact ⟨Nat.le_add_right _ _, hinv⟩
  split
  · split
    · split
      · exact ⟨Nat.le_add_right _ _, hinv⟩
      · exact ⟨Nat.le_add_right _ _, hinv⟩
    · exact ⟨Nat.le_add_right _ _, hinv⟩
  split
  · exact ⟨Nat.le_add_right _ _, hinv⟩
  split
  · rename_i hp
    split
    · have hh : (st.param ++ [c]).head? = st.param.head? := by
        cases h : st.param with
        | nil => exact absurd h hp
        | cons x xs => rfl
      simp only [Seen, seen, hh]
      exact ⟨Nat.le_add_right _ _, hinv⟩
    · cases hl : lookupParam d args st.param st.running with
      | ok v =>
        simp only [Res.next, Seen]
        refine ⟨?_, by simp⟩
        have h0 : ∀ o k m q, seen ⟨o, k, m, q, []⟩ = k := fun _ _ _ _ => rfl
        rw [h0]
        by_cases hq : st.param = b!"?"
        · simp [hq, seen]
        · rw [if_neg hq, seen]
          omega
      | error => simp [Res.next, Seen]
      | panic =>
        obtain ⟨h1, h2⟩ := lookup_panic d args _ _ hl
        simp only [Res.next, Seen]
        refine ⟨hinv h1, ?_⟩
        simp only [seen, h1, if_true]
        omega
  rename_i hp
  have hp' : st.param = [] := Decidable.not_not.1 hp
  split
  · rename_i hs
    have hc : c ≠ '?' := by rintro rfl; simp [startsParam] at hs
    refine ⟨?_, ?_⟩
    · simp [seen, hc, hp']
    · intro h; exact absurd (by simpa using h) hc
  split
  · rename_i hc
    split
    · rename_i hd
      exact ⟨by simp [seen, hp', hc.1], fun _ => hd⟩
    · split
      · trivial
      · cases hl : litOf args[st.running]? with
        | ok v =>
          simp only [Res.next, Seen]
          refine ⟨?_, hinv⟩
          simp [seen, hc.1, hp']
        | error => simp [Res.next, Seen]
        | panic => exact absurd hl (litOf_no_panic _)
  · exact ⟨Nat.le_add_right _ _, hinv⟩

theorem scan_panic (q : Str) (st : St) (hinv : st.param.head? = some '?' → d = .sqlite)
    (h : scan d hi args q st = .panic) : d = .sqlite ∧ args.length < seen st + q.count '?' := by
  induction q generalizing st with
  | nil =>
    simp only [scan, finish] at h
    split at h
    · cases hl : lookupParam d args st.param st.running with
      | ok v => rw [hl] at h; simp only at h; split at h <;> cases h
      | error => rw [hl] at h; cases h
      | panic =>
        obtain ⟨h1, h2⟩ := lookup_panic d args _ _ hl
        refine ⟨hinv h1, ?_⟩
        simp only [seen, h1, if_true]
        omega
    · split at h <;> cases h
  | cons c r ih =>
    have hst := step_seen d hi args c r.head? st hinv
    rw [scan] at h
    cases hs : step d hi args c r.head? st with
    | ok st' =>
      rw [hs] at h hst
      obtain ⟨h1, h2⟩ := hst
      obtain ⟨h3, h4⟩ := ih st' h2 h
      refine ⟨h3, ?_⟩
      rw [List.count_cons]
      by_cases hc : c = '?'
      · simp [hc] at h1 ⊢; omega
      · simp [hc] at h1 ⊢; omega
    | error e =>
      rw [hs] at h hst
      cases e with
      | ok s => cases h
      | error => cases h
      | panic => exact ⟨hst.1, by have := hst.2; omega⟩

/-- **C23**, crashes: `Sprintf` can only crash for SQLite, and only if the query has more `?` than
arguments. -/
theorem sprintf_panic (q : Str) (h : sprintf d hi q args = .panic) :
    d = .sqlite ∧ args.length < q.count '?' := by
  unfold sprintf at h
  split at h
  · cases h
  · have := scan_panic d hi args q {} (by simp) h
    simpa [seen] using this

/-! ## Where C23 fails -/

/-- With one argument for two lone `?`, `Sprintf` crashes for SQLite (for the other dialects this is an
error). -/
theorem sprintf_panic_refuted :
    ¬ ∀ hi q args, sprintf .sqlite hi q args ≠ .panic := by
  intro h
  exact h (fun _ => false) b!"SELECT ?, ?" [{ literal := some b!"1" }] (by decide +kernel)

/-- A parameter that is directly followed by quoted text, like `SELECT $1"name"`, is moved behind that
text. -/
theorem sprintf_adjacent_refuted :
    ¬ ∀ hi args (ps : List Piece), args ≠ [] → (∀ p ∈ ps, IsPiece .postgres hi p) →
      textOf (sprintf .postgres hi (text .postgres ps) args) = filled .postgres args 0 ps := by
  intro h
  have := h (fun _ => false) [{ literal := some b!"1" }] [.param '$' (.ord 1), .quoted '"' b!"name"]
    (by simp) (by simp [IsPiece, IsParam, quotes])
  revert this
  decide +kernel

/-- What comes out is `"name"1`. -/
example : sprintf .postgres (fun _ => false) b!"$1\"name\"" [{ literal := some b!"1" }] =
    .ok b!"\"name\"1" := by decide +kernel

/-- MySQL strings may contain escaped quotes: the string literal `'a\'?\'b'` is not left alone. -/
theorem sprintf_backslash_refuted :
    ¬ ∀ hi args s v, SqlSpec.readString .mysql s = some (v, []) →
      sprintf .mysql hi ('\'' :: s) args = .ok ('\'' :: s) := by
  intro h
  have := h (fun _ => false) [{ literal := some b!"1" }] b!"a\\'?\\'b'" b!"a'?'b" (by decide +kernel)
  revert this
  decide +kernel

/-- SQLite also accepts identifiers in backquotes and brackets; parameters are looked for in them. -/
theorem sprintf_sqlite_backquote_refuted :
    ¬ ∀ hi args s, '`' ∉ s → sprintf .sqlite hi ('`' :: (s ++ b!"`")) args = .ok ('`' :: (s ++ b!"`")) := by
  intro h
  have := h (fun _ => false) [{ literal := some b!"1" }] b!"is it?" (by decide +kernel)
  revert this
  decide +kernel

/-! ### Instances -/

/-- `SELECT "a?", 'it''s $1' WHERE x=$2 AND y=$1` -/
def sampleQuery : List Piece :=
  [.quoted '"' b!"a?", .plain ',', .quoted '\'' b!"it's $1", .plain '=', .param '$' (.ord 2),
    .plain ' ', .param '$' (.ord 1)]

example : IsQuery .postgres (fun _ => false) sampleQuery := by
  simp [IsQuery, sampleQuery, IsPiece, Apart, quotes, sigils, text, Piece.text, close, doubled, IsParam,
    paramText, nameChar_eq, word]

example : text .postgres sampleQuery = b!"\"a?\",'it''s $1'=$2 $1" ∧
    sprintf .postgres (fun _ => false) (text .postgres sampleQuery)
      [{ literal := some b!"NULL" }, { literal := some b!"'x'" }] =
      .ok b!"\"a?\",'it''s $1'='x' NULL" := by decide +kernel

/-- Names, numbers and lone question marks for SQLite. -/
example : sprintf .sqlite (fun _ => false) b!"?,:b,?2,?"
    [{ literal := some b!"1" }, { name := some b!"b", literal := some b!"2" }] = .ok b!"1,2,2,2" := by
  decide +kernel

example : IsQuery .sqlserver (fun _ => false)
    [.quoted '[' b!"a]b", .plain '=', .param '@' (.ord 1), .plain ',', .param '@' (.named b!"px")] := by
  have hn : IsName .sqlserver (fun _ => false) b!"px" := by
    refine ⟨by simp, by simp [nameChar_eq, word], by decide, ?_⟩
    intro _ c _ r hr
    cases hr
    decide
  simp [IsQuery, IsPiece, Apart, quotes, sigils, text, Piece.text, close, IsParam, paramText, nameChar_eq, word, hn]

end Sqddl.Sprintf
