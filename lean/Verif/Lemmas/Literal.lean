import Verif.Spec.Literal
import Verif.Lemmas.CsvValues
import Verif.Props.Sprint
import Verif.Props.PqArray

/-!
# Lemmas: literals are read
-/

namespace LiteralSpec
open Go Sqddl Sqddl.DumpCsv Sqddl.Sprint CsvSpec SqlSpec

theorem digits_ne_nil (n : Nat) : Nat.toDigits 10 n ≠ [] := by
  intro h
  have : 0 < (Nat.toDigits 10 n).length := Nat.length_toDigits_pos
  rw [h] at this; simp at this

theorem digits_all (n : Nat) : (Nat.toDigits 10 n).all isDigit = true := by
  rw [List.all_eq_true]; exact PqArray.toDigits_digits n

theorem readInt_formatInt (i : Int) : readInt (formatInt i) = some i := by
  cases i with
  | ofNat n =>
    have h1 := digits_ne_nil n
    have h2 := digits_all n
    have h3 : Nat.ofDigitChars 10 (Nat.toDigits 10 n) 0 = n := Nat.ofDigitChars_ten_toDigits
    have hd := PqArray.toDigits_digits n
    have e : formatInt (Int.ofNat n) = Nat.toDigits 10 n := rfl
    rw [e]
    unfold readInt
    split
    · rename_i r hr; exact absurd (hd '-' (by simp [hr])) (by decide)
    · rw [if_pos ⟨h1, h2⟩, h3]; rfl
  | negSucc n =>
    have h1 := digits_ne_nil (n + 1)
    have h2 := digits_all (n + 1)
    have h3 : Nat.ofDigitChars 10 (Nat.toDigits 10 (n + 1)) 0 = n + 1 := Nat.ofDigitChars_ten_toDigits
    simp only [formatInt, readInt]
    rw [if_pos ⟨h1, h2⟩, h3]
    rfl

theorem formatInt_ne_null (i : Int) : formatInt i ≠ b!"NULL" := by
  intro h
  have := readInt_formatInt i
  rw [h] at this
  have e : readInt b!"NULL" = none := by decide +kernel
  rw [e] at this; cases this

theorem hexDigitValue_hexDigit : ∀ n, n < 16 → hexDigitValue (hexDigit n) = some n := by decide

theorem readHex_hexEncode {b : Str} (h : Bytes b) : readHex (hexEncode b) = some b := by
  induction b with
  | nil => rfl
  | cons c r ih =>
    have hc := h c (by simp)
    have ih := ih fun x hx => h x (by simp [hx])
    have e : hexEncode (c :: r) = hexDigit (c.toNat / 16) :: hexDigit (c.toNat % 16) :: hexEncode r := rfl
    rw [e, readHex, hexDigitValue_hexDigit _ (by omega), hexDigitValue_hexDigit _ (by omega)]
    simp only [Option.bind_some, ih, Option.map_some]
    rw [Nat.div_add_mod]
    simp

theorem doubleQuotes_plain {s : Str} (h : '\'' ∉ s) : doubleQuotes s = s := by
  induction s with
  | nil => rfl
  | cons c r ih =>
    simp at h
    rw [doubleQuotes, if_neg (fun e => h.1 e.symm), ih h.2]

/-- A literal without quotes and line ends inside is read as its inside. -/
theorem evalString_quoted (d : Dialect) (s : Str) (hd : d ≠ .oracle) (hq : '\'' ∉ s)
    (hn : ∀ c ∈ s, isNewline c = false) (hb : d = .mysql → '\\' ∉ s) :
    evalString d (b!"'" ++ s ++ b!"'") = some s := by
  have hnl : ¬ ∃ c ∈ s, c = '\r' ∨ c = '\n' := by
    rintro ⟨c, hc, h⟩
    have := hn c hc
    rcases h with rfl | rfl <;> cases this
  have := sprintString_evaluates_partial d s hd hb fun _ h => absurd h hnl
  have e : sprintString d s = b!"'" ++ s ++ b!"'" := by
    unfold sprintString
    rw [if_neg (by simpa using hn), sqlLit, doubleQuotes_plain hq]
    simp
  rw [e] at this
  exact this

/-! ## Times -/

theorem timeText_length (t : Time) (h : IsTime t) : (timeText t).length = 19 := by
  obtain ⟨hy, hmo, hd, hh, hmi, hs⟩ := h
  have ly := (pad_spec (k := 4) (by decide) hy).1
  have lmo := (pad_spec (k := 2) (by decide) hmo).1
  have ld := (pad_spec (k := 2) (by decide) hd).1
  have lh := (pad_spec (k := 2) (by decide) hh).1
  have lmi := (pad_spec (k := 2) (by decide) hmi).1
  have ls := (pad_spec (k := 2) (by decide) hs).1
  simp [timeText, dateText, clockText, ly, lmo, ld, lh, lmi, ls]

theorem readTime_any (t : Time) (h : IsTime t) : readTime (timeText t) = some { t with nano := 0 } :=
  readTime_timeText { t with nano := 0 } h rfl

theorem trim_zeros (s : Str) : ∃ z, s = (s.reverse.dropWhile (· = '0')).reverse ++ List.replicate z '0' := by
  have h := List.takeWhile_append_dropWhile (p := fun c : Char => decide (c = '0')) (l := s.reverse)
  have hz : ∀ c ∈ s.reverse.takeWhile (fun c => decide (c = '0')), c = '0' := by
    intro c hc
    have := List.all_takeWhile (p := fun c : Char => decide (c = '0')) (l := s.reverse)
    rw [List.all_eq_true] at this
    simpa using this c hc
  have e := List.eq_replicate_of_mem hz
  refine ⟨(s.reverse.takeWhile (fun c => decide (c = '0'))).length, ?_⟩
  have := congrArg List.reverse h
  rw [List.reverse_append, List.reverse_reverse, e, List.reverse_replicate] at this
  exact this.symm

theorem readFraction_fracText {n : Nat} (hn : n < 10 ^ 9) {r : Str}
    (hr : ∀ c t, r = c :: t → isDigit c = false ∧ c ≠ '.') :
    readFraction (fracText n ++ r) = some (n / 100 * 100, r) := by
  have htake : ∀ f : Str, f.all isDigit = true → (f ++ r).takeWhile isDigit = f ∧ (f ++ r).dropWhile isDigit = r := by
    intro f hf
    have hd : ∀ a ∈ f, isDigit a = true := by simpa using hf
    rw [List.takeWhile_append_of_pos hd, List.dropWhile_append_of_pos hd]
    cases r with
    | nil => simp
    | cons c t => simp [(hr c t rfl).1]
  unfold fracText
  by_cases h0 : n / 100 = 0
  · rw [if_pos h0, h0, List.nil_append]
    unfold readFraction
    split
    · rename_i t
      exact absurd rfl (hr '.' t rfl).2
    · rfl
  · rw [if_neg h0]
    obtain ⟨hl, hdig, hval⟩ := pad_spec (k := 7) (n := n / 100) (by decide) (by omega)
    obtain ⟨z, hz⟩ := trim_zeros (pad 7 (n / 100))
    revert hz
    generalize ((pad 7 (n / 100)).reverse.dropWhile (· = '0')).reverse = f
    intro hz
    rw [hz] at hl hdig hval
    rw [List.all_append, Bool.and_eq_true] at hdig
    rw [Nat.ofDigitChars_append, Nat.ofDigitChars_replicate_zero] at hval
    simp only [List.length_append, List.length_replicate] at hl
    have hne : f ≠ [] := by
      rintro rfl
      simp at hval
      omega
    obtain ⟨t1, t2⟩ := htake f hdig.1
    simp only [List.cons_append, readFraction, t1, t2]
    rw [if_neg (by rintro (h | h); exact hne h; omega)]
    have hp : 10 ^ (9 - f.length) = 10 ^ z * 100 := by
      rw [show 9 - f.length = z + 2 by omega, Nat.pow_add]
    rw [hp, ← hval]
    congr 2
    rw [← Nat.mul_assoc]
    congr 1
    rw [Nat.mul_comm]

theorem readZone_sign {m : Nat} (hm : m < 6000) (c : Char) :
    readZone ([c] ++ pad 2 (m / 60) ++ b!":" ++ pad 2 (m % 60)) =
      if c = '+' then some ((m : Int) * 60) else if c = '-' then some (-((m : Int) * 60)) else none := by
  have l1 := (pad_spec (k := 2) (n := m / 60) (by decide) (by omega)).1
  have l2 := (pad_spec (k := 2) (n := m % 60) (by decide) (by omega)).1
  have e : [c] ++ pad 2 (m / 60) ++ b!":" ++ pad 2 (m % 60) =
      [c] ++ (pad 2 (m / 60) ++ (':' :: pad 2 (m % 60))) := by simp
  have e2 : [c] ++ pad 2 (m / 60) ++ b!":" ++ pad 2 (m % 60) =
      ([c] ++ pad 2 (m / 60) ++ [':']) ++ (pad 2 (m % 60) ++ []) := by simp
  have n1 : number ([c] ++ pad 2 (m / 60) ++ b!":" ++ pad 2 (m % 60)) 1 2 = some (m / 60) := by
    rw [e]; exact number_pad (by decide) (by omega) [c] _ 1 rfl
  have n2 : number ([c] ++ pad 2 (m / 60) ++ b!":" ++ pad 2 (m % 60)) 4 2 = some (m % 60) := by
    rw [e2]; exact number_pad (by decide) (by omega) _ _ 4 (by simp [l1])
  have g : ([c] ++ pad 2 (m / 60) ++ b!":" ++ pad 2 (m % 60))[3]? = some ':' := by
    rw [show ([c] ++ pad 2 (m / 60) ++ b!":" ++ pad 2 (m % 60)) =
      ([c] ++ pad 2 (m / 60)) ++ ':' :: pad 2 (m % 60) by simp]
    exact get_mid _ _ _ 3 (by simp [l1])
  unfold readZone
  rw [n1, n2, g, if_pos ⟨by simp [l1, l2], rfl⟩]
  simp only [Option.bind_some, List.cons_append, List.getElem?_cons_zero, Option.some.injEq]
  have hs : ((m / 60 : Nat) : Int) * 3600 + ((m % 60 : Nat) : Int) * 60 = (m : Int) * 60 := by omega
  rw [hs]

theorem tdiv_bound {o : Int} (h : o.natAbs < 100 * 3600) : (o.tdiv 60).natAbs < 6000 := by
  rcases Int.le_total 0 o with h0 | h0
  · rw [Int.tdiv_eq_ediv_of_nonneg h0]; omega
  · rw [show o = -(-o) by omega, Int.neg_tdiv, Int.tdiv_eq_ediv_of_nonneg (by omega)]; omega

theorem readZone_zoneText {o : Int} (h : o.natAbs < 100 * 3600) :
    readZone (zoneText o) = some (o.tdiv 60 * 60) := by
  have hm := tdiv_bound h
  unfold zoneText
  by_cases hs : o.tdiv 60 < 0
  · rw [if_pos hs, readZone_sign hm '-', if_neg (by decide), if_pos rfl]
    congr 1
    generalize o.tdiv 60 = x at *
    omega
  · rw [if_neg hs, readZone_sign hm '+', if_pos rfl]
    congr 1
    generalize o.tdiv 60 = x at *
    omega

theorem zoneText_head (o : Int) : ∃ c t, zoneText o = c :: t ∧ (c = '+' ∨ c = '-') := by
  unfold zoneText
  by_cases h : o.tdiv 60 < 0
  · rw [if_pos h]; exact ⟨'-', _, rfl, .inr rfl⟩
  · rw [if_neg h]; exact ⟨'+', _, rfl, .inl rfl⟩

/-- Times with offset: what is lost are the digits after the seventh and the seconds of the offset. -/
theorem readStamp_zone (t : Time) (o : Int) (h : IsTime t) (hn : t.nano < 10 ^ 9) (ho : o.natAbs < 100 * 3600) :
    readStamp (timeText t ++ (fracText t.nano ++ zoneText o)) =
      some (instant { t with nano := t.nano / 100 * 100 } (o.tdiv 60 * 60)) := by
  have hl := timeText_length t h
  obtain ⟨c, z, hz, hc⟩ := zoneText_head o
  have hf := readFraction_fracText hn (r := zoneText o) (by
    intro c' t' e
    rw [hz] at e
    cases e
    rcases hc with rfl | rfl <;> decide)
  unfold readStamp
  rw [List.take_append_of_le_length (by omega), List.take_of_length_le (by omega), readTime_any t h]
  rw [List.drop_append_of_le_length (by omega), List.drop_eq_nil_of_le (by omega), List.nil_append, hf]
  simp only [Option.bind_some]
  rw [if_neg (by rw [hz]; simp), readZone_zoneText ho]
  rfl

/-- Times without offset: what is lost are the fractions of the second. -/
theorem readStamp_plain (t : Time) (h : IsTime t) :
    readStamp (timeText t) = some (instant { t with nano := 0 } 0) := by
  have hl := timeText_length t h
  unfold readStamp
  rw [List.take_of_length_le (by omega), readTime_any t h, List.drop_eq_nil_of_le (by omega)]
  rfl

theorem pad_digits (k n : Nat) : ∀ c ∈ pad k n, isDigit c = true := by
  intro c hc
  unfold pad at hc
  rw [List.mem_append] at hc
  rcases hc with hc | hc
  · rw [List.eq_of_mem_replicate hc]; decide
  · exact PqArray.toDigits_digits n c hc

theorem timeText_chars (t : Time) : ∀ c ∈ timeText t, isDigit c = true ∨ c ∈ ['-', ' ', ':'] := by
  have p := fun k n => pad_digits k n
  intro c hc
  simp only [timeText, dateText, clockText, List.mem_append] at hc
  grind

theorem fracText_chars (n : Nat) : ∀ c ∈ fracText n, isDigit c = true ∨ c = '.' := by
  intro c hc
  unfold fracText at hc
  split at hc
  · simp at hc
  · rw [List.mem_cons] at hc
    rcases hc with rfl | hc
    · exact .inr rfl
    · left
      rw [List.mem_reverse] at hc
      have := (List.dropWhile_suffix _).subset hc
      rw [List.mem_reverse] at this
      exact pad_digits _ _ c this

theorem zoneText_chars (o : Int) : ∀ c ∈ zoneText o, isDigit c = true ∨ c ∈ ['-', '+', ':'] := by
  have p := fun k n => pad_digits k n
  intro c hc
  simp only [zoneText, List.mem_append] at hc
  rcases hc with ((hc | hc) | hc) | hc
  · split at hc <;> simp at hc <;> subst hc <;> simp
  · exact .inl (p _ _ c hc)
  · simp at hc; subst hc; simp
  · exact .inl (p _ _ c hc)

end LiteralSpec
