import Verif.Props.Csv
import Verif.Props.PqArray
import Verif.Spec.CsvValues

/-!
# Lemmas about the fields of a CSV file
-/

namespace Sqddl.DumpCsv
open Go CsvSpec

theorem unix_of_not_cr {s : Str} (h : '\r' ∉ s) : UnixText s := by
  intro a b e
  exact h (by rw [e]; simp)

theorem unix_append {p h : Str} (hp : UnixText p) (hh : ∀ c ∈ h, c ≠ '\n') : UnixText (p ++ h) := by
  intro a b e
  rcases List.append_eq_append_iff.1 e with ⟨x, h1, h2⟩ | ⟨x, h1, h2⟩
  · exact hh '\n' (by rw [h2]; simp) rfl
  · cases x with
    | nil =>
      simp at h2
      exact hh '\n' (by rw [← h2]; simp) rfl
    | cons y x =>
      simp at h2
      cases x with
      | nil => simp at h2; exact hh '\n' (by rw [← h2.2]; simp) rfl
      | cons z x =>
        simp at h2
        exact hp a x (by rw [h1, ← h2.1, ← h2.2.1])

theorem hexDigit_mem : ∀ n, n < 16 → hexDigit n ∈ b!"0123456789abcdef" := by decide

theorem hexEncode_lower {s : Str} (h : Bytes s) : LowerHex (hexEncode s) := by
  intro c hc
  obtain ⟨x, hx, hc⟩ := List.mem_flatMap.1 hc
  have := h x hx
  simp only [List.mem_cons, List.not_mem_nil, or_false] at hc
  rcases hc with rfl | rfl
  · exact hexDigit_mem _ (by omega)
  · exact hexDigit_mem _ (by omega)

theorem lower_not {s : Str} (h : LowerHex s) {c : Char} (hc : c ∉ b!"0123456789abcdef") : c ∉ s :=
  fun hm => hc (h c hm)

theorem lower_ne {s : Str} (h : LowerHex s) : ∀ c ∈ s, c ≠ '\n' := by
  intro c hc e
  subst e
  exact lower_not h (by decide) hc

theorem lowerHex_append {a b : Str} (ha : LowerHex a) (hb : LowerHex b) : LowerHex (a ++ b) := by
  intro c hc
  rcases List.mem_append.1 hc with hc | hc
  · exact ha c hc
  · exact hb c hc

/-- a lower case digit has one value, and is the digit of that value -/
theorem hexValue_lower : ∀ c ∈ b!"0123456789abcdef", ∃ n, n < 16 ∧ hexValue c = some n ∧ hexDigit n = c := by
  intro c hc
  simp only [List.mem_cons, List.not_mem_nil, or_false] at hc
  rcases hc with rfl | rfl | rfl | rfl | rfl | rfl | rfl | rfl | rfl | rfl | rfl | rfl | rfl | rfl | rfl | rfl
  · exact ⟨0, by decide⟩
  · exact ⟨1, by decide⟩
  · exact ⟨2, by decide⟩
  · exact ⟨3, by decide⟩
  · exact ⟨4, by decide⟩
  · exact ⟨5, by decide⟩
  · exact ⟨6, by decide⟩
  · exact ⟨7, by decide⟩
  · exact ⟨8, by decide⟩
  · exact ⟨9, by decide⟩
  · exact ⟨10, by decide⟩
  · exact ⟨11, by decide⟩
  · exact ⟨12, by decide⟩
  · exact ⟨13, by decide⟩
  · exact ⟨14, by decide⟩
  · exact ⟨15, by decide⟩

theorem toNat_byte : ∀ n, n < 256 → (Char.ofNat n).toNat = n := by
  intro n hn
  have : n.isValidChar := Or.inl (by omega)
  simp [Char.ofNat, this, Char.ofNatAux, Char.toNat]

theorem hexEncode_append (a b : Str) : hexEncode (a ++ b) = hexEncode a ++ hexEncode b := by
  simp [hexEncode]

/-- an even number of lower case digits is decoded, and encoded again -/
theorem hexDecode_lower (n : Nat) (s : Str) (h : LowerHex s) (hl : s.length = 2 * n) :
    ∃ b, hexDecode s = some b ∧ hexEncode b = s ∧ b.length = n ∧ Bytes b := by
  induction n generalizing s with
  | zero =>
    have : s = [] := List.length_eq_zero_iff.1 (by omega)
    subst this
    exact ⟨[], rfl, rfl, rfl, by simp [Bytes]⟩
  | succ n ih =>
    match s, hl with
    | x :: y :: r, hl =>
      obtain ⟨b, h1, h2, h3, h4⟩ := ih r (fun c hc => h c (by simp [hc])) (by simp at hl; omega)
      obtain ⟨u, hu, hu1, hu2⟩ := hexValue_lower x (h x (by simp))
      obtain ⟨v, hv, hv1, hv2⟩ := hexValue_lower y (h y (by simp))
      refine ⟨Char.ofNat (16 * u + v) :: b, ?_, ?_, by simp [h3], ?_⟩
      · simp [hexDecode, hu1, hv1, h1]
      · have ht := toNat_byte (16 * u + v) (by omega)
        rw [show hexEncode (Char.ofNat (16 * u + v) :: b) =
          [hexDigit ((Char.ofNat (16 * u + v)).toNat / 16),
            hexDigit ((Char.ofNat (16 * u + v)).toNat % 16)] ++ hexEncode b from rfl, ht, h2]
        rw [show (16 * u + v) / 16 = u by omega, show (16 * u + v) % 16 = v by omega, hu2, hv2]
        rfl
      · intro c hc
        simp at hc
        rcases hc with rfl | hc
        · rw [toNat_byte _ (by omega)]; omega
        · exact h4 c hc

theorem filter_lower {s : Str} (h : LowerHex s) : s.filter (· ≠ '-') = s := by
  rw [List.filter_eq_self]
  intro c hc
  simp
  intro e; subst e
  exact lower_not h (by decide) hc

theorem hexEncode_length (b : Str) : (hexEncode b).length = 2 * b.length := by
  induction b with
  | nil => rfl
  | cons c b ih =>
    rw [show hexEncode (c :: b) = [hexDigit (c.toNat / 16), hexDigit (c.toNat % 16)] ++ hexEncode b from rfl]
    simp [ih]; omega

/-- the digits of a UUID, decoded and written as a UUID -/
theorem uuid_roundtrip {s : Str} (h : IsUuid s) :
    ∃ b, hexDecode (s.filter (· ≠ '-')) = some b ∧ b.length = 16 ∧ uuidText b = s ∧
      LowerHex (s.filter (· ≠ '-')) := by
  obtain ⟨a, b, c, d, e, rfl, la, lb, lc, ld, le, ha, hb, hc, hd, he⟩ := h
  have hf : (a ++ '-' :: (b ++ '-' :: (c ++ '-' :: (d ++ '-' :: e)))).filter (· ≠ '-') =
      a ++ (b ++ (c ++ (d ++ e))) := by
    have key (x y : Str) (hx : LowerHex x) :
        (x ++ '-' :: y).filter (· ≠ '-') = x ++ y.filter (· ≠ '-') := by
      rw [List.filter_append, filter_lower hx, List.filter_cons_of_neg (by simp)]
    rw [key a _ ha, key b _ hb, key c _ hc, key d _ hd, filter_lower he]
  obtain ⟨a', ha1, ha2, ha3, ha4⟩ := hexDecode_lower 4 a ha (by omega)
  obtain ⟨b', hb1, hb2, hb3, hb4⟩ := hexDecode_lower 2 b hb (by omega)
  obtain ⟨c', hc1, hc2, hc3, hc4⟩ := hexDecode_lower 2 c hc (by omega)
  obtain ⟨d', hd1, hd2, hd3, hd4⟩ := hexDecode_lower 2 d hd (by omega)
  obtain ⟨e', he1, he2, he3, he4⟩ := hexDecode_lower 6 e he (by omega)
  have hlow : LowerHex (a ++ (b ++ (c ++ (d ++ e)))) :=
    lowerHex_append ha (lowerHex_append hb (lowerHex_append hc (lowerHex_append hd he)))
  refine ⟨a' ++ (b' ++ (c' ++ (d' ++ e'))), ?_, by simp [ha3, hb3, hc3, hd3, he3], ?_, by rw [hf]; exact hlow⟩
  · rw [hf]
    have := PqArray.hexDecode_hexEncode (a' ++ (b' ++ (c' ++ (d' ++ e')))) (by
      intro x hx
      simp only [List.mem_append] at hx
      rcases hx with hx | hx | hx | hx | hx
      · exact ha4 x hx
      · exact hb4 x hx
      · exact hc4 x hx
      · exact hd4 x hx
      · exact he4 x hx)
    simp only [hexEncode_append, ha2, hb2, hc2, hd2, he2] at this
    exact this
  · unfold uuidText
    have t1 : (a' ++ (b' ++ (c' ++ (d' ++ e')))).take 4 = a' := by
      rw [← ha3]; exact List.take_left
    have d1 : (a' ++ (b' ++ (c' ++ (d' ++ e')))).drop 4 = b' ++ (c' ++ (d' ++ e')) := by
      rw [← ha3]; exact List.drop_left
    have t2 : (b' ++ (c' ++ (d' ++ e'))).take 2 = b' := by rw [← hb3]; exact List.take_left
    have d2 : (a' ++ (b' ++ (c' ++ (d' ++ e')))).drop 6 = c' ++ (d' ++ e') := by
      rw [show 6 = 2 + 4 from rfl, ← List.drop_drop, List.drop_drop, Nat.add_comm, ← List.drop_drop, d1,
        ← hb3]; exact List.drop_left
    have t3 : (c' ++ (d' ++ e')).take 2 = c' := by rw [← hc3]; exact List.take_left
    have d3 : (a' ++ (b' ++ (c' ++ (d' ++ e')))).drop 8 = d' ++ e' := by
      rw [show 8 = 6 + 2 from rfl, ← List.drop_drop, d2, ← hc3]; exact List.drop_left
    have t4 : (d' ++ e').take 2 = d' := by rw [← hd3]; exact List.take_left
    have d4 : (a' ++ (b' ++ (c' ++ (d' ++ e')))).drop 10 = e' := by
      rw [show 10 = 8 + 2 from rfl, ← List.drop_drop, d3, ← hd3]; exact List.drop_left
    rw [t1, d1, t2, d2, t3, d3, t4, d4, ha2, hb2, hc2, hd2, he2]
    simp

/-! ## Times -/

theorem pad_spec {k n : Nat} (hk : 0 < k) (h : n < 10 ^ k) :
    (pad k n).length = k ∧ (pad k n).all isDigit = true ∧ Nat.ofDigitChars 10 (pad k n) 0 = n := by
  have hl := (Nat.length_toDigits_le_iff (b := 10) (n := n) (by decide) hk).2 h
  unfold pad
  refine ⟨by simp; omega, ?_, ?_⟩
  · rw [List.all_append, Bool.and_eq_true]
    constructor
    · rw [List.all_eq_true]
      intro c hc
      rw [List.eq_of_mem_replicate hc]; decide
    · rw [List.all_eq_true]
      exact PqArray.toDigits_digits n
  · rw [Nat.ofDigitChars_append, Nat.ofDigitChars_replicate_zero]
    simp [Nat.ofDigitChars_ten_toDigits]

theorem number_pad {k n : Nat} (hk : 0 < k) (h : n < 10 ^ k) (a b : Str) (i : Nat) (hi : a.length = i) :
    number (a ++ (pad k n ++ b)) i k = some n := by
  obtain ⟨h1, h2, h3⟩ := pad_spec hk h
  have : ((a ++ (pad k n ++ b)).drop i).take k = pad k n := by
    rw [← hi, List.drop_left, ← h1]
    simp [h1]
  unfold number
  rw [this, if_pos ⟨h1, h2⟩, h3]

theorem get_mid (a : Str) (c : Char) (b : Str) (i : Nat) (hi : a.length = i) :
    (a ++ c :: b)[i]? = some c := by
  rw [← hi]; simp

theorem readTime_timeText (t : Time) (h : IsTime t) (h0 : t.nano = 0) : readTime (timeText t) = some t := by
  obtain ⟨hy, hmo, hd, hh, hmi, hs⟩ := h
  have ly := (pad_spec (k := 4) (by decide) hy).1
  have lmo := (pad_spec (k := 2) (by decide) hmo).1
  have ld := (pad_spec (k := 2) (by decide) hd).1
  have lh := (pad_spec (k := 2) (by decide) hh).1
  have lmi := (pad_spec (k := 2) (by decide) hmi).1
  have ls := (pad_spec (k := 2) (by decide) hs).1
  have e : timeText t = pad 4 t.year ++ '-' :: (pad 2 t.month ++ '-' :: (pad 2 t.day ++ ' ' ::
      (pad 2 t.hour ++ ':' :: (pad 2 t.minute ++ ':' :: pad 2 t.second)))) := by
    simp [timeText, dateText, clockText]
  have n0 : number (timeText t) 0 4 = some t.year := by
    rw [e]; exact number_pad (by decide) hy [] _ 0 rfl
  have n1 : number (timeText t) 5 2 = some t.month := by
    rw [e, show ∀ x, pad 4 t.year ++ '-' :: (pad 2 t.month ++ x) = (pad 4 t.year ++ ['-']) ++ (pad 2 t.month ++ x)
      by intro x; simp]
    exact number_pad (by decide) hmo _ _ 5 (by simp [ly])
  have n2 : number (timeText t) 8 2 = some t.day := by
    rw [e, show ∀ x, pad 4 t.year ++ '-' :: (pad 2 t.month ++ '-' :: (pad 2 t.day ++ x)) =
      (pad 4 t.year ++ '-' :: (pad 2 t.month ++ ['-'])) ++ (pad 2 t.day ++ x) by intro x; simp]
    exact number_pad (by decide) hd _ _ 8 (by simp [ly, lmo])
  have n3 : number (timeText t) 11 2 = some t.hour := by
    rw [e, show ∀ x, pad 4 t.year ++ '-' :: (pad 2 t.month ++ '-' :: (pad 2 t.day ++ ' ' :: (pad 2 t.hour ++ x))) =
      (pad 4 t.year ++ '-' :: (pad 2 t.month ++ '-' :: (pad 2 t.day ++ [' ']))) ++ (pad 2 t.hour ++ x)
      by intro x; simp]
    exact number_pad (by decide) hh _ _ 11 (by simp [ly, lmo, ld])
  have n4 : number (timeText t) 14 2 = some t.minute := by
    rw [e, show ∀ x, pad 4 t.year ++ '-' :: (pad 2 t.month ++ '-' :: (pad 2 t.day ++ ' ' :: (pad 2 t.hour ++ ':' ::
        (pad 2 t.minute ++ x)))) =
      (pad 4 t.year ++ '-' :: (pad 2 t.month ++ '-' :: (pad 2 t.day ++ ' ' :: (pad 2 t.hour ++ [':'])))) ++
        (pad 2 t.minute ++ x) by intro x; simp]
    exact number_pad (by decide) hmi _ _ 14 (by simp [ly, lmo, ld, lh])
  have n5 : number (timeText t) 17 2 = some t.second := by
    rw [e, show pad 4 t.year ++ '-' :: (pad 2 t.month ++ '-' :: (pad 2 t.day ++ ' ' :: (pad 2 t.hour ++ ':' ::
        (pad 2 t.minute ++ ':' :: pad 2 t.second)))) =
      (pad 4 t.year ++ '-' :: (pad 2 t.month ++ '-' :: (pad 2 t.day ++ ' ' :: (pad 2 t.hour ++ ':' ::
        (pad 2 t.minute ++ [':']))))) ++ (pad 2 t.second ++ []) by simp]
    exact number_pad (by decide) hs _ _ 17 (by simp [ly, lmo, ld, lh, lmi])
  unfold readTime
  rw [n0, n1, n2, n3, n4, n5, if_pos]
  · simp only [Option.bind_some, Option.map_some, Option.some.injEq]
    cases t
    simp at h0
    simp [h0]
  · rw [e]
    refine ⟨by simp [ly, lmo, ld, lh, lmi, ls], get_mid _ _ _ 4 ly, ?_, ?_, ?_, ?_⟩
    · rw [show ∀ x, pad 4 t.year ++ '-' :: (pad 2 t.month ++ '-' :: x) =
        (pad 4 t.year ++ '-' :: pad 2 t.month) ++ '-' :: x by intro x; simp]
      exact get_mid _ _ _ 7 (by simp [ly, lmo])
    · rw [show ∀ x, pad 4 t.year ++ '-' :: (pad 2 t.month ++ '-' :: (pad 2 t.day ++ ' ' :: x)) =
        (pad 4 t.year ++ '-' :: (pad 2 t.month ++ '-' :: pad 2 t.day)) ++ ' ' :: x by intro x; simp]
      exact get_mid _ _ _ 10 (by simp [ly, lmo, ld])
    · rw [show ∀ x, pad 4 t.year ++ '-' :: (pad 2 t.month ++ '-' :: (pad 2 t.day ++ ' ' :: (pad 2 t.hour ++ ':' :: x))) =
        (pad 4 t.year ++ '-' :: (pad 2 t.month ++ '-' :: (pad 2 t.day ++ ' ' :: pad 2 t.hour))) ++ ':' :: x
        by intro x; simp]
      exact get_mid _ _ _ 13 (by simp [ly, lmo, ld, lh])
    · rw [show ∀ x, pad 4 t.year ++ '-' :: (pad 2 t.month ++ '-' :: (pad 2 t.day ++ ' ' :: (pad 2 t.hour ++ ':' ::
          (pad 2 t.minute ++ ':' :: x)))) =
        (pad 4 t.year ++ '-' :: (pad 2 t.month ++ '-' :: (pad 2 t.day ++ ' ' :: (pad 2 t.hour ++ ':' ::
          pad 2 t.minute)))) ++ ':' :: x by intro x; simp]
      exact get_mid _ _ _ 16 (by simp [ly, lmo, ld, lh, lmi])

theorem pad_clean (k n : Nat) : '\r' ∉ pad k n := by
  unfold pad
  intro h
  rcases List.mem_append.1 h with h | h
  · exact absurd (List.eq_of_mem_replicate h) (by decide)
  · exact absurd (PqArray.toDigits_digits n _ h) (by decide)

theorem timeText_clean (t : Time) : '\r' ∉ timeText t := by
  simp [timeText, dateText, clockText, pad_clean]

theorem formatInt_clean (i : Int) : '\r' ∉ formatInt i := by
  cases i with
  | ofNat n => exact fun h => absurd (PqArray.toDigits_digits n _ h) (by decide)
  | negSucc n =>
    intro h
    simp [formatInt] at h
    exact absurd (PqArray.toDigits_digits _ _ h) (by decide)

end Sqddl.DumpCsv
