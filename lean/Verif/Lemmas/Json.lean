import Verif.Model.Json
import Verif.Lemmas.Literal

/-!
# Written JSON is read again
-/

namespace JsonText
open Go

/-! ## Bytes and code points -/

theorem byte_toNat {n : Nat} (h : n < 0x100) : (byte n).toNat = n := by
  have hv : n.isValidChar := Or.inl (by omega)
  unfold byte
  rw [Char.ofNat, dif_pos hv]
  rfl

/-- How a code point is written. -/
def escOf (n : Nat) : Str :=
  if n < 0x80 then escapeByte (byte n)
  else if n = 0x2028 ∨ n = 0x2029 then b!"\\u202" ++ [lowerHex (n % 16)]
  else encode n

theorem escapeFrom_rest (t rest : Str) :
    escapeFrom false t.length (t ++ rest) = t ++ escapeFrom false 0 rest := by
  induction t with
  | nil => rfl
  | cons c t ih => simp [escapeFrom, ih]

theorem escapeFrom_true_zero (s : Str) : escapeFrom true 0 s = escapeFrom false 0 s := by
  cases s <;> simp [escapeFrom]

theorem escapeFrom_skip (t rest : Str) :
    escapeFrom true t.length (t ++ rest) = escapeFrom false 0 rest := by
  induction t with
  | nil => exact escapeFrom_true_zero rest
  | cons c t ih => simp [escapeFrom, ih]

/-- A rune of several bytes that is copied. -/
theorem escapeFrom_rune {c : Char} {t : Str} (rest : Str) (h : ¬ c.toNat < 0x80)
    (hr : runeRest c (t ++ rest) = some t.length)
    (hs : ¬ (c.toNat = 0xE2 ∧ (t ++ rest).head?.map Char.toNat = some 0x80 ∧
      ((t ++ rest).tail.head?.map Char.toNat = some 0xA8 ∨
        (t ++ rest).tail.head?.map Char.toNat = some 0xA9))) :
    escapeFrom false 0 (c :: (t ++ rest)) = c :: t ++ escapeFrom false 0 rest := by
  rw [escapeFrom, if_neg h, hr]
  dsimp only
  rw [if_neg hs, escapeFrom_rest]
  rfl

theorem runeRest_of {c : Char} {s : Str} {r : List (Nat × Nat)} (h : following c.toNat = some r)
    (hi : inRanges r s = true) : runeRest c s = some r.length := by
  simp [runeRest, h, hi]

/-- Every code point is written by itself. -/
theorem escape_scalar {n : Nat} (h : Scalar n) (rest : Str) :
    escapeFrom false 0 (encode n ++ rest) = escOf n ++ escapeFrom false 0 rest := by
  unfold Scalar at h
  unfold escOf
  by_cases h1 : n < 0x80
  · rw [if_pos h1, encode, if_pos h1]
    simp [escapeFrom, byte_toNat (show n < 0x100 by omega), h1]
  rw [if_neg h1]
  by_cases h2 : n < 0x800
  · have e : encode n = [byte (0xC0 + n / 0x40), byte (0x80 + n % 0x40)] := by
      rw [encode, if_neg h1, if_pos h2]
    rw [if_neg (by omega), e]
    have e1 := byte_toNat (show 0xC0 + n / 0x40 < 0x100 by omega)
    have e2 := byte_toNat (show 0x80 + n % 0x40 < 0x100 by omega)
    refine escapeFrom_rune (c := byte (0xC0 + n / 0x40)) (t := [byte (0x80 + n % 0x40)]) rest (by omega)
      (runeRest_of (r := [(0x80, 0xBF)]) ?_ ?_) (by omega)
    · rw [e1, following, if_pos (by omega)]
    · simp [inRanges, e2]; omega
  by_cases h3 : n < 0x10000
  · have e : encode n = [byte (0xE0 + n / 0x1000), byte (0x80 + n / 0x40 % 0x40), byte (0x80 + n % 0x40)] := by
      rw [encode, if_neg h1, if_neg h2, if_pos h3]
    have e1 := byte_toNat (show 0xE0 + n / 0x1000 < 0x100 by omega)
    have e2 := byte_toNat (show 0x80 + n / 0x40 % 0x40 < 0x100 by omega)
    have e3 := byte_toNat (show 0x80 + n % 0x40 < 0x100 by omega)
    have hr : runeRest (byte (0xE0 + n / 0x1000))
        ([byte (0x80 + n / 0x40 % 0x40), byte (0x80 + n % 0x40)] ++ rest) = some 2 := by
      by_cases c1 : n / 0x1000 = 0
      · refine runeRest_of (r := [(0xA0, 0xBF), (0x80, 0xBF)]) ?_ ?_
        · rw [e1, following, if_neg (by omega), if_pos (by omega)]
        · simp [inRanges, e2, e3]; omega
      by_cases c2 : n / 0x1000 = 13
      · refine runeRest_of (r := [(0x80, 0x9F), (0x80, 0xBF)]) ?_ ?_
        · rw [e1, following, if_neg (by omega), if_neg (by omega), if_pos (by omega)]
        · simp [inRanges, e2, e3]; omega
      · refine runeRest_of (r := [(0x80, 0xBF), (0x80, 0xBF)]) ?_ ?_
        · rw [e1, following, if_neg (by omega), if_neg (by omega), if_neg (by omega), if_pos (by omega)]
        · simp [inRanges, e2, e3]; omega
    by_cases h4 : n = 0x2028 ∨ n = 0x2029
    · rw [if_pos h4, e]
      show escapeFrom false 0 (byte (0xE0 + n / 0x1000) ::
        ([byte (0x80 + n / 0x40 % 0x40), byte (0x80 + n % 0x40)] ++ rest)) = _
      rw [escapeFrom, if_neg (by omega), hr]
      dsimp only
      rw [if_pos ⟨by omega, by simp [e2]; omega, by simp [e3]; omega⟩]
      have hk := escapeFrom_skip [byte (0x80 + n / 0x40 % 0x40), byte (0x80 + n % 0x40)] rest
      simp only [List.length_cons, List.length_nil] at hk
      rw [hk]
      simp [e3]
      congr 1
      omega
    · rw [if_neg h4, e]
      refine escapeFrom_rune (t := [byte (0x80 + n / 0x40 % 0x40), byte (0x80 + n % 0x40)]) rest (by omega) hr ?_
      simp [e1, e2, e3]
      omega
  · have e : encode n = [byte (0xF0 + n / 0x40000), byte (0x80 + n / 0x1000 % 0x40),
        byte (0x80 + n / 0x40 % 0x40), byte (0x80 + n % 0x40)] := by
      rw [encode, if_neg h1, if_neg h2, if_neg h3]
    rw [if_neg (by omega), e]
    have e1 := byte_toNat (show 0xF0 + n / 0x40000 < 0x100 by omega)
    have e2 := byte_toNat (show 0x80 + n / 0x1000 % 0x40 < 0x100 by omega)
    have e3 := byte_toNat (show 0x80 + n / 0x40 % 0x40 < 0x100 by omega)
    have e4 := byte_toNat (show 0x80 + n % 0x40 < 0x100 by omega)
    refine escapeFrom_rune (c := byte (0xF0 + n / 0x40000))
      (t := [byte (0x80 + n / 0x1000 % 0x40), byte (0x80 + n / 0x40 % 0x40), byte (0x80 + n % 0x40)])
      rest (by omega) ?_ (by omega)
    by_cases c1 : n / 0x40000 = 0
    · refine runeRest_of (r := [(0x90, 0xBF), (0x80, 0xBF), (0x80, 0xBF)]) ?_ ?_
      · rw [e1, following, if_neg (by omega), if_neg (by omega), if_neg (by omega), if_neg (by omega),
          if_pos (by omega)]
      · simp [inRanges, e2, e3, e4]; omega
    by_cases c2 : n / 0x40000 = 4
    · refine runeRest_of (r := [(0x80, 0x8F), (0x80, 0xBF), (0x80, 0xBF)]) ?_ ?_
      · rw [e1, following, if_neg (by omega), if_neg (by omega), if_neg (by omega), if_neg (by omega),
          if_neg (by omega), if_neg (by omega), if_pos (by omega)]
      · simp [inRanges, e2, e3, e4]; omega
    · refine runeRest_of (r := [(0x80, 0xBF), (0x80, 0xBF), (0x80, 0xBF)]) ?_ ?_
      · rw [e1, following, if_neg (by omega), if_neg (by omega), if_neg (by omega), if_neg (by omega),
          if_neg (by omega), if_pos (by omega)]
      · simp [inRanges, e2, e3, e4]; omega

/-! ## Strings -/

/-- What the reader finds for a code point. -/
def piecesOf (n : Nat) : List Piece :=
  if n < 0x80 then
    if n ∈ [0x22, 0x5C, 0x0A, 0x0D, 0x09] then [.byte (byte n)]
    else if n < 0x20 ∨ n ∈ [0x3C, 0x3E, 0x26] then [.unit n]
    else [.byte (byte n)]
  else if n = 0x2028 ∨ n = 0x2029 then [.unit n]
  else (encode n).map .byte

theorem text_bytes (s : Str) (r : List Piece) : text (s.map .byte ++ r) = s ++ text r := by
  induction s with
  | nil => rfl
  | cons c s ih => simp [text, ih]

theorem text_unit {n : Nat} (h : n < 0xD800) (r : List Piece) : text (.unit n :: r) = encode n ++ text r := by
  cases r with
  | nil => simp [text, lone]; omega
  | cons p r =>
    cases p with
    | byte c => simp [text, lone]; omega
    | unit l =>
      rw [text, if_neg (by omega), lone, if_neg (by omega)]

theorem text_piecesOf (n : Nat) (r : List Piece) : text (piecesOf n ++ r) = encode n ++ text r := by
  unfold piecesOf
  by_cases h1 : n < 0x80
  · have e : encode n = [byte n] := by simp [encode, h1]
    rw [if_pos h1]
    by_cases h2 : n ∈ [0x22, 0x5C, 0x0A, 0x0D, 0x09]
    · rw [if_pos h2, e]; rfl
    · rw [if_neg h2]
      by_cases h3 : n < 0x20 ∨ n ∈ [0x3C, 0x3E, 0x26]
      · rw [if_pos h3]; exact text_unit (by omega) r
      · rw [if_neg h3, e]; rfl
  · rw [if_neg h1]
    by_cases h2 : n = 0x2028 ∨ n = 0x2029
    · rw [if_pos h2]; exact text_unit (by omega) r
    · rw [if_neg h2]; exact text_bytes _ r

theorem text_pieces (cs : List Nat) : text (cs.flatMap piecesOf) = cs.flatMap encode := by
  induction cs with
  | nil => rfl
  | cons n cs ih => rw [List.flatMap_cons, List.flatMap_cons, text_piecesOf, ih]

theorem hexDigitValue_lowerHex : ∀ n, n < 16 → LiteralSpec.hexDigitValue (lowerHex n) = some n := by decide

theorem lex_esc_plain (ps : List Piece) (c x : Char) (rest : Str) (hu : c ≠ 'u') (hs : simple c = some x) :
    lex (.str ps) ('\\' :: c :: rest) = lex (.str (ps ++ [.byte x])) rest := by
  rw [lex, if_neg (by decide), if_pos rfl, lex, if_neg hu, hs]
  rfl

theorem lex_hex (ps : List Piece) {a b c d : Char} {x y z w : Nat} (rest : Str)
    (ha : LiteralSpec.hexDigitValue a = some x) (hb : LiteralSpec.hexDigitValue b = some y)
    (hc : LiteralSpec.hexDigitValue c = some z) (hd : LiteralSpec.hexDigitValue d = some w) :
    lex (.str ps) ('\\' :: 'u' :: a :: b :: c :: d :: rest) =
      lex (.str (ps ++ [.unit (((x * 16 + y) * 16 + z) * 16 + w)])) rest := by
  rw [lex, if_neg (by decide), if_pos rfl, lex, if_pos rfl]
  simp [lex, ha, hb, hc, hd]

theorem lex_plain (ps : List Piece) (c : Char) (rest : Str) (h1 : c ≠ '"') (h2 : c ≠ '\\')
    (h3 : ¬ c.toNat < 0x20) : lex (.str ps) (c :: rest) = lex (.str (ps ++ [.byte c])) rest := by
  rw [lex, if_neg h1, if_neg h2, if_neg h3]

theorem lex_bytes (s : Str) (h : ∀ c ∈ s, 0x80 ≤ c.toNat) (ps : List Piece) (rest : Str) :
    lex (.str ps) (s ++ rest) = lex (.str (ps ++ s.map .byte)) rest := by
  induction s generalizing ps with
  | nil => simp
  | cons c s ih =>
    have hc := h c (by simp)
    rw [List.cons_append, lex_plain ps c _ (by rintro rfl; revert hc; decide)
      (by rintro rfl; revert hc; decide) (by omega), ih (fun x hx => h x (by simp [hx]))]
    simp

theorem byte_ne {n m : Nat} (hn : n < 0x100) (hm : m < 0x100) (h : n ≠ m) : byte n ≠ byte m := fun e => by
  have := congrArg Char.toNat e
  rw [byte_toNat hn, byte_toNat hm] at this
  exact h this

theorem lex_ascii {n : Nat} (h : n < 0x80) (ps : List Piece) (rest : Str) :
    lex (.str ps) (escapeByte (byte n) ++ rest) = lex (.str (ps ++ piecesOf n)) rest := by
  unfold piecesOf
  rw [if_pos h]
  by_cases h1 : n ∈ [0x22, 0x5C, 0x0A, 0x0D, 0x09]
  · rw [if_pos h1]
    simp only [List.mem_cons, List.not_mem_nil, or_false] at h1
    rcases h1 with rfl | rfl | rfl | rfl | rfl
    · exact lex_esc_plain ps _ _ rest (by decide) (by decide)
    · exact lex_esc_plain ps _ _ rest (by decide) (by decide)
    · exact lex_esc_plain ps 'n' _ rest (by decide) (by decide)
    · exact lex_esc_plain ps 'r' _ rest (by decide) (by decide)
    · exact lex_esc_plain ps 't' _ rest (by decide) (by decide)
  · rw [if_neg h1]
    simp only [List.mem_cons, List.not_mem_nil, or_false, not_or] at h1
    have n1 : byte n ≠ '"' := byte_ne (m := 0x22) (by omega) (by omega) h1.1
    have n2 : byte n ≠ '\\' := byte_ne (m := 0x5C) (by omega) (by omega) h1.2.1
    have n3 : byte n ≠ '\n' := byte_ne (m := 0x0A) (by omega) (by omega) h1.2.2.1
    have n4 : byte n ≠ '\r' := byte_ne (m := 0x0D) (by omega) (by omega) h1.2.2.2.1
    have n5 : byte n ≠ '\t' := byte_ne (m := 0x09) (by omega) (by omega) h1.2.2.2.2
    unfold escapeByte
    rw [if_neg (by simp [n1, n2]), if_neg n3, if_neg n4, if_neg n5, byte_toNat (by omega)]
    by_cases h2 : n < 0x20 ∨ n ∈ [0x3C, 0x3E, 0x26]
    · rw [if_pos h2, if_pos (by
        simp only [List.mem_cons, List.not_mem_nil, or_false] at h2
        rcases h2 with h2 | rfl | rfl | rfl
        · exact .inl h2
        · exact .inr (.inl rfl)
        · exact .inr (.inr (.inl rfl))
        · exact .inr (.inr (.inr rfl)))]
      refine (lex_hex ps rest (x := 0) (y := 0) (by decide) (by decide)
        (hexDigitValue_lowerHex (n / 16) (by omega)) (hexDigitValue_lowerHex (n % 16) (by omega))).trans ?_
      rw [show ((0 * 16 + 0) * 16 + n / 16) * 16 + n % 16 = n by omega]
    · rw [if_neg h2]
      simp only [List.mem_cons, List.not_mem_nil, or_false, not_or] at h2
      rw [if_neg (by
        simp only [not_or]
        exact ⟨h2.1, byte_ne (m := 0x3C) (by omega) (by omega) h2.2.1,
          byte_ne (m := 0x3E) (by omega) (by omega) h2.2.2.1,
          byte_ne (m := 0x26) (by omega) (by omega) h2.2.2.2⟩)]
      exact lex_plain ps _ rest n1 n2 (by rw [byte_toNat (by omega)]; omega)

theorem encode_high {n : Nat} (h : ¬ n < 0x80) (hn : n < 0x110000) : ∀ c ∈ encode n, 0x80 ≤ c.toNat := by
  unfold encode
  rw [if_neg h]
  by_cases h2 : n < 0x800
  · rw [if_pos h2]
    simp only [List.mem_cons, List.not_mem_nil, or_false]
    rintro c (rfl | rfl) <;> rw [byte_toNat (by omega)] <;> omega
  rw [if_neg h2]
  by_cases h3 : n < 0x10000
  · rw [if_pos h3]
    simp only [List.mem_cons, List.not_mem_nil, or_false]
    rintro c (rfl | rfl | rfl) <;> rw [byte_toNat (by omega)] <;> omega
  · rw [if_neg h3]
    simp only [List.mem_cons, List.not_mem_nil, or_false]
    rintro c (rfl | rfl | rfl | rfl) <;> rw [byte_toNat (by omega)] <;> omega

theorem lex_escOf {n : Nat} (h : Scalar n) (ps : List Piece) (rest : Str) :
    lex (.str ps) (escOf n ++ rest) = lex (.str (ps ++ piecesOf n)) rest := by
  by_cases h1 : n < 0x80
  · have := lex_ascii h1 ps rest
    unfold escOf
    rw [if_pos h1, this]
  · unfold escOf piecesOf
    rw [if_neg h1, if_neg h1]
    by_cases h2 : n = 0x2028 ∨ n = 0x2029
    · rw [if_pos h2, if_pos h2]
      refine (lex_hex ps rest (x := 2) (y := 0) (z := 2) (by decide) (by decide) (by decide)
        (hexDigitValue_lowerHex (n % 16) (by omega))).trans ?_
      rw [show ((2 * 16 + 0) * 16 + 2) * 16 + n % 16 = n by omega]
    · rw [if_neg h2, if_neg h2]
      exact lex_bytes _ (encode_high h1 (by unfold Scalar at h; omega)) ps rest

theorem lex_escaped {cs : List Nat} (h : ∀ n ∈ cs, Scalar n) (ps : List Piece) (rest : Str) :
    lex (.str ps) (escapeFrom false 0 (cs.flatMap encode) ++ rest) =
      lex (.str (ps ++ cs.flatMap piecesOf)) rest := by
  induction cs generalizing ps with
  | nil => simp [escapeFrom]
  | cons n cs ih =>
    have hn := h n (by simp)
    rw [List.flatMap_cons, escape_scalar hn, List.append_assoc, lex_escOf hn,
      ih (fun m hm => h m (by simp [hm]))]
    simp

theorem lex_quote {s : Str} (h : Utf8 s) (rest : Str) :
    lex .out (quoteJson s ++ rest) = (lex .out rest).map (.str s :: ·) := by
  obtain ⟨cs, hc, rfl⟩ := h
  unfold quoteJson
  rw [List.cons_append, lex, if_neg (by decide), if_neg (by decide), if_pos rfl, List.append_assoc,
    lex_escaped hc, List.nil_append, List.cons_append, List.nil_append, lex, if_pos rfl, text_pieces]

/-! ## Words -/

/-- What can follow a word. -/
def Stop (s : Str) : Prop := ∀ c, s.head? = some c → space c = true ∨ punct c = true

theorem not_wordChar {c : Char} (h : space c = true ∨ punct c = true) : wordChar c = false := by
  simp only [space, punct, List.contains_iff_mem, List.mem_cons, List.not_mem_nil, or_false] at h
  rcases h with (rfl | rfl | rfl | rfl) | rfl | rfl | rfl | rfl | rfl | rfl <;> decide

theorem lex_word_end (w : Str) {rest : Str} (h : Stop rest) :
    lex (.word w) rest = (lex .out rest).map (.word w :: ·) := by
  cases rest with
  | nil => rfl
  | cons c s =>
    have hc := h c rfl
    have hw := not_wordChar hc
    by_cases hs : space c = true
    · simp [lex, hw, hs]
    · have hp := hc.resolve_left hs
      simp [lex, hw, hs, hp, Function.comp_def]

theorem lex_word (w u : Str) {rest : Str} (hu : u.all wordChar = true) (h : Stop rest) :
    lex (.word w) (u ++ rest) = (lex .out rest).map (.word (w ++ u) :: ·) := by
  induction u generalizing w with
  | nil => simpa using lex_word_end w h
  | cons c u ih =>
    simp only [List.all_cons, Bool.and_eq_true] at hu
    rw [List.cons_append, lex, if_pos hu.1, ih _ hu.2]
    simp

theorem lex_out_word {w rest : Str} (hw : w ≠ []) (hu : w.all wordChar = true) (h : Stop rest) :
    lex .out (w ++ rest) = (lex .out rest).map (.word w :: ·) := by
  cases w with
  | nil => exact absurd rfl hw
  | cons c u =>
    simp only [List.all_cons, Bool.and_eq_true] at hu
    have hs : ¬ space c = true := fun e => by simp [not_wordChar (.inl e)] at hu
    have hp : ¬ punct c = true := fun e => by simp [not_wordChar (.inr e)] at hu
    have hq : c ≠ '"' := by rintro rfl; exact absurd hu.1 (by decide)
    rw [List.cons_append, lex, if_neg hs, if_neg hp, if_neg hq, if_pos hu.1, lex_word [c] u hu.2 h]
    rfl

theorem lex_punct {c : Char} (h : punct c = true) (s : Str) :
    lex .out (c :: s) = (lex .out s).map (.punct c :: ·) := by
  have hs : ¬ space c = true := by
    simp only [punct, List.contains_iff_mem, List.mem_cons, List.not_mem_nil, or_false] at h
    rcases h with rfl | rfl | rfl | rfl | rfl | rfl <;> decide
  rw [lex, if_neg hs, if_pos h]

theorem lex_spaces (k : Nat) (s : Str) : lex .out (List.replicate k ' ' ++ s) = lex .out s := by
  induction k with
  | zero => rfl
  | succ k ih => rw [List.replicate_succ, List.cons_append, lex, if_pos (by decide), ih]

theorem lex_newline (d : Nat) (s : Str) : lex .out (newline d ++ s) = lex .out s := by
  unfold newline
  rw [List.cons_append, lex, if_pos (by decide), lex_spaces]

theorem stop_newline (d : Nat) (s : Str) : Stop (newline d ++ s) := by
  intro c hc
  simp only [newline, List.cons_append, List.head?_cons, Option.some.injEq] at hc
  subst hc
  decide

theorem stop_cons {c : Char} {s : Str} (h : punct c = true) : Stop (c :: s) := by
  intro x hx
  simp only [List.head?_cons, Option.some.injEq] at hx
  subst hx
  exact .inr h

/-! ## Values -/

mutual
/-- The strings of a value are in UTF-8. -/
def Clean : Json → Prop
  | .str s => Utf8 s
  | .arr xs => CleanItems xs
  | .obj ms => CleanMembers ms
  | _ => True
/-- The strings of the values of an array are in UTF-8. -/
def CleanItems : List Json → Prop
  | [] => True
  | x :: xs => Clean x ∧ CleanItems xs
/-- The strings of the members of an object are in UTF-8. -/
def CleanMembers : List (Str × Json) → Prop
  | [] => True
  | m :: ms => CleanMember m ∧ CleanMembers ms
/-- The strings of a member of an object are in UTF-8. -/
def CleanMember : Str × Json → Prop
  | (k, x) => Utf8 k ∧ Clean x
end

mutual
/-- The tokens of a value. -/
def toks : Json → List Tok
  | .null => [.word b!"null"]
  | .bool b => [.word (if b then b!"true" else b!"false")]
  | .int n => [.word (formatInt n)]
  | .str s => [.str s]
  | .arr xs => .punct '[' :: (toksItems xs ++ [.punct ']'])
  | .obj ms => .punct '{' :: (toksMembers ms ++ [.punct '}'])
/-- The tokens of the values of an array. -/
def toksItems : List Json → List Tok
  | [] => []
  | x :: xs => toks x ++ (if xs.isEmpty then [] else [.punct ',']) ++ toksItems xs
/-- The tokens of the members of an object. -/
def toksMembers : List (Str × Json) → List Tok
  | [] => []
  | m :: ms => toksMember m ++ (if ms.isEmpty then [] else [.punct ',']) ++ toksMembers ms
/-- The tokens of a member of an object. -/
def toksMember : Str × Json → List Tok
  | (k, x) => .str k :: .punct ':' :: toks x
end

theorem formatInt_word (n : Int) : formatInt n ≠ [] ∧ (formatInt n).all wordChar = true := by
  have key : ∀ m : Nat, (Nat.toDigits 10 m).all wordChar = true := fun m => by
    have := LiteralSpec.digits_all m
    rw [List.all_eq_true] at this ⊢
    intro c hc
    have hd := this c hc
    simp only [isDigit, Bool.and_eq_true, decide_eq_true_eq] at hd
    simp only [wordChar, Char.isAlphanum, Char.isDigit, Bool.or_eq_true, Bool.and_eq_true, decide_eq_true_eq]
    left; right
    exact hd
  cases n with
  | ofNat m => exact ⟨LiteralSpec.digits_ne_nil m, key m⟩
  | negSucc m =>
    refine ⟨by simp [formatInt], ?_⟩
    simp only [formatInt, List.all_cons, key, Bool.and_true]
    decide

theorem map_append_map {o : Option (List Tok)} (a b : List Tok) :
    (o.map (b ++ ·)).map (a ++ ·) = o.map ((a ++ b) ++ ·) := by
  cases o <;> simp

theorem stop_sep (b : Bool) (rest : Str) (h : Stop rest) :
    Stop ((if b then ([] : Str) else b!",") ++ rest) := by
  cases b
  · exact stop_cons (by decide)
  · exact h

theorem lex_sep (b : Bool) (rest : Str) :
    lex .out ((if b then ([] : Str) else b!",") ++ rest) =
      (lex .out rest).map ((if b then [] else [.punct ',']) ++ ·) := by
  cases b
  · exact lex_punct (by decide) rest
  · cases h : lex .out rest <;> simp [h]

theorem stop_printItems (d : Nat) (xs : List Json) (rest : Str) (h : Stop rest) :
    Stop (printItems d xs ++ rest) := by
  cases xs with
  | nil => exact h
  | cons x xs =>
    rw [printItems, List.append_assoc, List.append_assoc, List.append_assoc]
    exact stop_newline d _

theorem stop_printMembers (d : Nat) (xs : List (Str × Json)) (rest : Str) (h : Stop rest) :
    Stop (printMembers d xs ++ rest) := by
  cases xs with
  | nil => exact h
  | cons x xs =>
    rw [printMembers, List.append_assoc, List.append_assoc, List.append_assoc]
    exact stop_newline d _

mutual

theorem lex_value (d : Nat) (j : Json) (hc : Clean j) (rest : Str) (hr : Stop rest) :
    lex .out (printJson d j ++ rest) = (lex .out rest).map (toks j ++ ·) := by
  match j, hc with
  | .null, _ => exact lex_out_word (w := b!"null") (by decide) (by decide) hr
  | .bool true, _ => exact lex_out_word (w := b!"true") (by decide) (by decide) hr
  | .bool false, _ => exact lex_out_word (w := b!"false") (by decide) (by decide) hr
  | .int n, _ => exact lex_out_word (formatInt_word n).1 (formatInt_word n).2 hr
  | .str s, h => exact lex_quote h rest
  | .arr [], _ =>
    show lex .out ('[' :: ']' :: rest) = _
    rw [lex_punct (by decide), lex_punct (by decide), Option.map_map]
    rfl
  | .arr (x :: xs), h =>
    rw [printJson, List.cons_append, lex_punct (by decide), List.append_assoc, List.append_assoc,
      lex_items (d + 1) (x :: xs) h _ (stop_newline d _), lex_newline]
    show ((lex .out (']' :: rest)).map _).map _ = _
    rw [lex_punct (by decide), toks]
    cases lex .out rest <;> simp
  | .obj [], _ =>
    show lex .out ('{' :: '}' :: rest) = _
    rw [lex_punct (by decide), lex_punct (by decide), Option.map_map]
    rfl
  | .obj (m :: ms), h =>
    rw [printJson, List.cons_append, lex_punct (by decide), List.append_assoc, List.append_assoc,
      lex_members (d + 1) (m :: ms) h _ (stop_newline d _), lex_newline]
    show ((lex .out ('}' :: rest)).map _).map _ = _
    rw [lex_punct (by decide), toks]
    cases lex .out rest <;> simp

theorem lex_items (d : Nat) (xs : List Json) (hc : CleanItems xs) (rest : Str) (hr : Stop rest) :
    lex .out (printItems d xs ++ rest) = (lex .out rest).map (toksItems xs ++ ·) := by
  match xs, hc with
  | [], _ => cases h : lex .out rest <;> simp [printItems, toksItems, h]
  | x :: xs, hc =>
    rw [printItems, List.append_assoc, List.append_assoc, List.append_assoc, lex_newline,
      lex_value d x hc.1 _ (stop_sep _ _ (stop_printItems d xs rest hr)), lex_sep,
      lex_items d xs hc.2 rest hr, toksItems]
    cases lex .out rest <;> simp

theorem lex_members (d : Nat) (xs : List (Str × Json)) (hc : CleanMembers xs) (rest : Str) (hr : Stop rest) :
    lex .out (printMembers d xs ++ rest) = (lex .out rest).map (toksMembers xs ++ ·) := by
  match xs, hc with
  | [], _ => cases h : lex .out rest <;> simp [printMembers, toksMembers, h]
  | x :: xs, hc =>
    rw [printMembers, List.append_assoc, List.append_assoc, List.append_assoc, lex_newline,
      lex_member d x hc.1 _ (stop_sep _ _ (stop_printMembers d xs rest hr)), lex_sep,
      lex_members d xs hc.2 rest hr, toksMembers]
    cases lex .out rest <;> simp

theorem lex_member (d : Nat) (m : Str × Json) (hc : CleanMember m) (rest : Str) (hr : Stop rest) :
    lex .out (printMember d m ++ rest) = (lex .out rest).map (toksMember m ++ ·) := by
  match m, hc with
  | (k, x), hc =>
    rw [printMember, List.append_assoc, List.append_assoc, lex_quote hc.1]
    show ((lex .out (':' :: ' ' :: (printJson d x ++ rest))).map _) = _
    rw [lex_punct (by decide), lex, if_pos (by decide), lex_value d x hc.2 rest hr, toksMember]
    cases lex .out rest <;> simp

end

theorem toks_ne_nil (j : Json) : toks j ≠ [] := by
  cases j <;> simp [toks]

theorem toks_head (j : Json) (r : List Tok) (c : Char) (hc : c = ']' ∨ c = '}') :
    (toks j ++ r).head? ≠ some (.punct c) := by
  cases j <;> simp [toks] <;> rcases hc with rfl | rfl <;> decide

theorem literal_formatInt (n : Int) : literal (formatInt n) = some (.int n) := by
  have h := LiteralSpec.readInt_formatInt n
  have e1 : formatInt n ≠ b!"null" := fun e => by
    rw [e, show LiteralSpec.readInt b!"null" = none by decide] at h
    cases h
  have e2 : formatInt n ≠ b!"true" := fun e => by
    rw [e, show LiteralSpec.readInt b!"true" = none by decide] at h
    cases h
  have e3 : formatInt n ≠ b!"false" := fun e => by
    rw [e, show LiteralSpec.readInt b!"false" = none by decide] at h
    cases h
  rw [literal, if_neg e1, if_neg e2, if_neg e3, h]
  rfl

mutual

theorem value_toks (j : Json) (n : Nat) (hn : (toks j).length ≤ n) (r : List Tok) :
    value n (toks j ++ r) = some (j, r) := by
  match n, hn with
  | 0, h => exact absurd (List.eq_nil_of_length_eq_zero (Nat.le_zero.1 h)) (toks_ne_nil j)
  | n + 1, h =>
    match j, h with
    | .null, _ => rfl
    | .bool true, _ => rfl
    | .bool false, _ => rfl
    | .int i, _ =>
      show (literal (formatInt i)).map _ = _
      rw [literal_formatInt]
      rfl
    | .str s, _ => rfl
    | .arr [], _ => rfl
    | .arr (x :: xs), h =>
      have hh : (toksItems (x :: xs) ++ ([Tok.punct ']'] ++ r)).head? ≠ some (.punct ']') := by
        rw [toksItems, List.append_assoc, List.append_assoc]
        exact toks_head x _ _ (.inl rfl)
      simp only [toks, List.length_cons, List.length_append, List.length_nil] at h
      rw [toks, List.cons_append, List.append_assoc, value, if_pos rfl, if_neg hh,
        items_toks (x :: xs) n (by omega) (by simp) r]
      rfl
    | .obj [], _ => rfl
    | .obj ((k, x) :: ms), h =>
      have hh : (toksMembers ((k, x) :: ms) ++ ([Tok.punct '}'] ++ r)).head? ≠ some (.punct '}') := by
        simp [toksMembers, toksMember]
      simp only [toks, List.length_cons, List.length_append, List.length_nil] at h
      rw [toks, List.cons_append, List.append_assoc, value, if_neg (by decide), if_pos rfl, if_neg hh,
        members_toks ((k, x) :: ms) n (by omega) (by simp) r]
      rfl

theorem items_toks (xs : List Json) (n : Nat) (hn : (toksItems xs).length + 1 ≤ n) (hx : xs ≠ [])
    (r : List Tok) : items n (toksItems xs ++ ([.punct ']'] ++ r)) = some (xs, r) := by
  match xs, n, hn, hx with
  | [], _, _, h => exact absurd rfl h
  | [x], n + 1, h, _ =>
    simp only [toksItems, List.length_append, List.length_nil, List.isEmpty_nil, if_true] at h
    rw [toksItems, List.append_assoc, List.append_assoc, items, value_toks x n (by omega)]
    rfl
  | x :: y :: ys, n + 1, h, _ =>
    have hx0 := List.length_pos_iff.2 (toks_ne_nil x)
    rw [toksItems] at h
    simp only [List.length_append, List.length_cons, List.length_nil, List.isEmpty_cons,
      Bool.false_eq_true, if_false] at h
    rw [toksItems, List.append_assoc, List.append_assoc, items, value_toks x n (by omega)]
    show (items n (toksItems (y :: ys) ++ ([.punct ']'] ++ r))).map _ = _
    rw [items_toks (y :: ys) n (by omega) (by simp) r]
    rfl

theorem members_toks (xs : List (Str × Json)) (n : Nat) (hn : (toksMembers xs).length + 1 ≤ n) (hx : xs ≠ [])
    (r : List Tok) : members n (toksMembers xs ++ ([.punct '}'] ++ r)) = some (xs, r) := by
  match xs, n, hn, hx with
  | [], _, _, h => exact absurd rfl h
  | [(k, x)], n + 1, h, _ =>
    simp only [toksMembers, toksMember, List.length_append, List.length_cons, List.length_nil,
      List.isEmpty_nil, if_true] at h
    rw [toksMembers, toksMember, List.append_assoc, List.append_assoc, List.cons_append, List.cons_append,
      members, value_toks x n (by omega)]
    rfl
  | (k, x) :: y :: ys, n + 1, h, _ =>
    rw [toksMembers, toksMember] at h
    simp only [List.length_append, List.length_cons, List.length_nil, List.isEmpty_cons,
      Bool.false_eq_true, if_false] at h
    rw [toksMembers, toksMember, List.append_assoc, List.append_assoc, List.cons_append, List.cons_append,
      members, value_toks x n (by omega)]
    show (members n (toksMembers (y :: ys) ++ ([.punct '}'] ++ r))).map _ = _
    rw [members_toks (y :: ys) n (by omega) (by simp) r]
    rfl

end

/-- What is written is read as it was. -/
theorem read_encodeJson {j : Json} (h : Clean j) : read (encodeJson j) = some j := by
  have hl : lex .out (encodeJson j) = some (toks j) := by
    unfold encodeJson
    rw [lex_value 0 j h b!"\n" (by intro c hc; simp at hc; subst hc; decide)]
    show (some ([] : List Tok)).map _ = _
    simp
  unfold read
  rw [hl]
  have hv := value_toks j ((toks j).length + 1) (by omega) []
  rw [List.append_nil] at hv
  show (match value ((toks j).length + 1) (toks j) with
    | some (j, []) => some j
    | _ => none) = _
  rw [hv]

end JsonText
