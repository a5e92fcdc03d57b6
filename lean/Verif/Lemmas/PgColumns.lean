import Verif.Spec.PgColumns
import Verif.Props.TypeArgs
import Verif.Model.PostgresSql

/-!
# Defaults of columns on Postgres
-/

namespace PgSpec
open SqlSpec Sqddl DdlText DdlSpec
open Go (parseInt64 parseDigits isDigit)

theorem cutColons_split (s : Str) : Go.cutColons s =
    if (splitCast s).2.isSome then some (splitCast s).1 else none := by
  fun_induction Go.cutColons s with
  | case1 => rfl
  | case2 c =>
    simp [splitCast]
  | case3 c d r h =>
    obtain ⟨rfl, rfl⟩ := h
    simp [splitCast]
  | case4 c d r h ih =>
    have h' : ¬ (c = ':' ∧ (d :: r).head? = some ':') := by simpa using h
    rw [ih]
    have e : splitCast (c :: d :: r) = (c :: (splitCast (d :: r)).1, (splitCast (d :: r)).2) := by
      conv => lhs; rw [splitCast, if_neg h']
    rw [e]
    cases (splitCast (d :: r)).2 <;> simp

theorem splitCast_none {s : Str} (h : (splitCast s).2 = none) : (splitCast s).1 = s := by
  induction s with
  | nil => rfl
  | cons c r ih =>
    unfold splitCast at h ⊢
    split at h
    · cases h
    · rename_i h0
      rw [if_neg h0, ih h]

theorem splitCast_fst (s : Str) : (splitCast (splitCast s).1).2 = none := by
  induction s with
  | nil => rfl
  | cons c r ih =>
    rw [splitCast]
    split
    · rfl
    · rename_i h0
      show (splitCast (c :: (splitCast r).1)).2 = none
      rw [splitCast, if_neg]
      · exact ih
      · rintro ⟨rfl, h1⟩
        apply h0
        refine ⟨rfl, ?_⟩
        cases r with
        | nil => cases h1
        | cons d r =>
          rw [splitCast] at h1
          split at h1
          · cases h1
          · exact h1

theorem splitCast_some {s ty : Str} (h : (splitCast s).2 = some ty) :
    s = (splitCast s).1 ++ b!"::" ++ ty := by
  induction s with
  | nil => cases h
  | cons c r ih =>
    by_cases h0 : c = ':' ∧ r.head? = some ':'
    · rw [splitCast, if_pos h0] at h ⊢
      obtain ⟨rfl, h1⟩ := h0
      injection h with h
      subst h
      cases r with
      | nil => cases h1
      | cons d r => injection h1 with h1; subst h1; rfl
    · rw [splitCast, if_neg h0] at h ⊢
      show c :: r = c :: (splitCast r).1 ++ b!"::" ++ ty
      rw [List.cons_append, List.cons_append, ← ih h]

theorem colon_upper {s : Str} (h : ':' ∈ s) : ':' ∈ Go.toUpper s := by
  unfold Go.toUpper
  exact List.mem_map.2 ⟨':', h, by decide⟩

/-- What the normalisation of a default does. -/
theorem pg_classify (s x : Str) (h : Uncast s x) :
    let u := Go.toUpper x
    let r := normalizeColumnDefault .postgres s
    (u ∈ [b!"1", b!"TRUE"] ∧ r = b!"'1'") ∨ (u ∈ [b!"0", b!"FALSE"] ∧ r = b!"'0'") ∨
    (u ∈ [b!"CURRENT_DATE", b!"CURRENT_TIME", b!"NULL"] ∧ r = u) ∨
    (u ∈ nowNames .postgres ∧ r = b!"CURRENT_TIMESTAMP") ∨ r = x := by
  obtain ⟨rfl, h2⟩ := h
  intro u r
  show _ ∨ _
  unfold u r normalizeColumnDefault
  simp only
  cases e : (splitCast (Go.trimSpace s)).2 with
  | none =>
    rw [splitCast_none e]
    split
    · rename_i h0; right; right; right; right; exact h0.symm
    split
    · left; exact ⟨‹_›, rfl⟩
    split
    · right; left; exact ⟨‹_›, rfl⟩
    split
    · rename_i h1
      right; right
      simp only [List.mem_cons, List.not_mem_nil, or_false] at h1
      rcases h1 with h1 | h1 | h1 | h1
      · left; exact ⟨by rw [h1]; decide, rfl⟩
      · left; exact ⟨by rw [h1]; decide, rfl⟩
      · right; left; exact ⟨by rw [h1]; decide, h1⟩
      · left; exact ⟨by rw [h1]; decide, rfl⟩
    split
    · rename_i h1; right; right; right; left; exact ⟨by rw [h1]; decide, rfl⟩
    · right; right; right; right
      rw [cutColons_split, e]; rfl
  | some ty =>
    right; right; right; right
    have hs := splitCast_some e
    have hc : ':' ∈ Go.trimSpace s := by rw [hs]; simp
    have hu := colon_upper hc
    have hno : ∀ x ∈ [b!"1", b!"TRUE", b!"0", b!"FALSE", b!"CURRENT_DATE", b!"CURRENT_TIME",
        b!"CURRENT_TIMESTAMP", b!"NULL", b!"NOW()"], ':' ∉ x := by decide
    have hn : ∀ x ∈ [b!"1", b!"TRUE", b!"0", b!"FALSE", b!"CURRENT_DATE", b!"CURRENT_TIME",
        b!"CURRENT_TIMESTAMP", b!"NULL", b!"NOW()"], Go.toUpper (Go.trimSpace s) ≠ x :=
      fun x hx e => hno x hx (e ▸ hu)
    rw [if_neg (fun h => by rw [h] at hc; cases hc), if_neg, if_neg, if_neg, if_neg,
      cutColons_split, e]
    · rfl
    all_goals
      simp only [List.mem_cons, List.not_mem_nil, or_false, forall_eq_or_imp, forall_eq] at hn ⊢
      grind

theorem toUpper_eq_nil {s : Str} : Go.toUpper s = [] ↔ s = [] := by simp [Go.toUpper]

/-- The normalised default is a spelling of the default. -/
theorem same_normalized {s x : Str} (h : Uncast s x) :
    SameDefault .postgres (normalizeColumnDefault .postgres s) x := by
  have h1 := pg_classify s x h
  simp only at h1
  generalize normalizeColumnDefault .postgres s = r at h1
  have hu1 : Go.toUpper b!"'1'" = b!"'1'" := by decide
  have hu2 : Go.toUpper b!"'0'" = b!"'0'" := by decide
  have hu3 : Go.toUpper b!"CURRENT_TIMESTAMP" = b!"CURRENT_TIMESTAMP" := by decide
  have hx := toUpper_idem x
  have m1 : ∀ u ∈ [b!"1", b!"TRUE"], u ∈ [b!"1", b!"TRUE", b!"'1'"] := by decide
  have m2 : b!"'1'" ∈ [b!"1", b!"TRUE", b!"'1'"] := by decide
  have m3 : ∀ u ∈ [b!"0", b!"FALSE"], u ∈ [b!"0", b!"FALSE", b!"'0'"] := by decide
  have m4 : b!"'0'" ∈ [b!"0", b!"FALSE", b!"'0'"] := by decide
  have hn : b!"CURRENT_TIMESTAMP" ∈ nowNames .postgres := by decide
  unfold SameDefault
  rcases h1 with ⟨h, rfl⟩ | ⟨h, rfl⟩ | ⟨h, rfl⟩ | ⟨h, rfl⟩ | rfl
  · exact Or.inr (Or.inl ⟨by rw [hu1]; exact m2, m1 _ h⟩)
  · exact Or.inr (Or.inr (Or.inl ⟨by rw [hu2]; exact m4, m3 _ h⟩))
  · exact Or.inr (Or.inr (Or.inr (Or.inl ⟨hx, by rw [hx]; exact h⟩)))
  · exact Or.inr (Or.inr (Or.inr (Or.inr ⟨by rw [hu3]; exact hn, h⟩)))
  · exact Or.inl rfl

/-- Defaults that compare as equal. -/
theorem default_eq {s t x y : Str} (hs : Uncast s x) (ht : Uncast t y)
    (h : normalizeColumnDefault .postgres s = normalizeColumnDefault .postgres t) :
    DefaultEq s t := by
  refine ⟨x, y, hs, ht, ?_⟩
  have h1 := pg_classify s x hs
  have h2 := pg_classify t y ht
  simp only at h1 h2
  rw [← h] at h2
  generalize normalizeColumnDefault .postgres s = r at h1 h2
  have hn : b!"CURRENT_TIMESTAMP" ∈ nowNames .postgres := by decide
  have hc : ∀ x ∈ [b!"CURRENT_DATE", b!"CURRENT_TIME", b!"NULL"], x ≠ b!"'1'" ∧ x ≠ b!"'0'" ∧
    x ≠ b!"CURRENT_TIMESTAMP" := by decide
  have hne1 : b!"'1'" ≠ b!"'0'" := by decide
  have hne2 : b!"'1'" ≠ b!"CURRENT_TIMESTAMP" := by decide
  have hne3 : b!"'0'" ≠ b!"CURRENT_TIMESTAMP" := by decide
  have hu1 : Go.toUpper b!"'1'" = b!"'1'" := by decide
  have hu2 : Go.toUpper b!"'0'" = b!"'0'" := by decide
  have hu3 : Go.toUpper b!"CURRENT_TIMESTAMP" = b!"CURRENT_TIMESTAMP" := by decide
  have hx := toUpper_idem x
  have hy := toUpper_idem y
  have m1 : ∀ u ∈ [b!"1", b!"TRUE"], u ∈ [b!"1", b!"TRUE", b!"'1'"] := by decide
  have m2 : b!"'1'" ∈ [b!"1", b!"TRUE", b!"'1'"] := by decide
  have m3 : ∀ u ∈ [b!"0", b!"FALSE"], u ∈ [b!"0", b!"FALSE", b!"'0'"] := by decide
  have m4 : b!"'0'" ∈ [b!"0", b!"FALSE", b!"'0'"] := by decide
  unfold SameDefault
  generalize [b!"1", b!"TRUE", b!"'1'"] = L1 at *
  generalize [b!"0", b!"FALSE", b!"'0'"] = L0 at *
  generalize [b!"1", b!"TRUE"] = K1 at *
  generalize [b!"0", b!"FALSE"] = K0 at *
  generalize [b!"CURRENT_DATE", b!"CURRENT_TIME", b!"NULL"] = K at *
  generalize b!"CURRENT_TIMESTAMP" = now at *
  generalize b!"'1'" = one at *
  generalize b!"'0'" = zero at *
  generalize nowNames .postgres = N at *
  grind

theorem uncast_some {s x : Str} (h : Uncast s x) (h0 : x ≠ []) :
    normalizeColumnDefault .postgres s ≠ [] := by
  have h1 := pg_classify s x h
  simp only at h1
  have hk : ∀ u ∈ [b!"CURRENT_DATE", b!"CURRENT_TIME", b!"NULL"], u ≠ [] := by decide
  rcases h1 with ⟨_, h⟩ | ⟨_, h⟩ | ⟨h2, h⟩ | ⟨_, h⟩ | h
  · rw [h]; decide
  · rw [h]; decide
  · rw [h]; exact hk _ h2
  · rw [h]; decide
  · rw [h]; exact h0

theorem castOk_nil {s : Str} (h : CastOk s) : normalizeColumnDefault .postgres s = [] ↔ s = [] := by
  rcases h with rfl | ⟨x, h1, h2, _⟩
  · exact ⟨fun _ => rfl, fun _ => rfl⟩
  · refine ⟨fun h => absurd h (uncast_some h1 h2), ?_⟩
    rintro rfl
    rfl

theorem castOk_uncast {s : Str} (h : CastOk s) : ∃ x, Uncast s x ∧ Go.trimSpace x = x := by
  rcases h with rfl | ⟨x, h1, h2, h3⟩
  · exact ⟨[], ⟨rfl, by intro ty h; cases h⟩, rfl⟩
  · exact ⟨x, h1, h3⟩

/-- A default that is set is a spelling of the default. -/
theorem default_set {s : Str} (h : CastOk s) :
    DefaultEq (normalizeColumnDefault .postgres s) s := by
  obtain ⟨x, h1, h2⟩ := castOk_uncast h
  refine ⟨normalizeColumnDefault .postgres s, x, ?_, h1, same_normalized h1⟩
  have h3 := pg_classify s x h1
  simp only at h3
  have hx : (splitCast x).2 = none := by rw [← h1.1]; exact splitCast_fst _
  have ok : ∀ r, Go.trimSpace r = r → (splitCast r).2 = none → Uncast r r := by
    intro r e1 e2
    unfold Uncast
    rw [e1]
    exact ⟨splitCast_none e2, by intro ty h; rw [e2] at h; cases h⟩
  have hk : ∀ u ∈ [b!"CURRENT_DATE", b!"CURRENT_TIME", b!"NULL"],
    Go.trimSpace u = u ∧ (splitCast u).2 = none := by decide
  rcases h3 with ⟨_, h⟩ | ⟨_, h⟩ | ⟨h2, h⟩ | ⟨_, h⟩ | h
  · rw [h]; exact ok _ (by decide) (by decide)
  · rw [h]; exact ok _ (by decide) (by decide)
  · rw [h]; exact ok _ (hk _ h2).1 (hk _ h2).2
  · rw [h]; exact ok _ (by decide) (by decide)
  · rw [h]; exact ok _ h2 hx

theorem ofDigitChars_lt (s : Str) (h : ∀ c ∈ s, '0' ≤ c ∧ c ≤ '9') (n : Nat) :
    Nat.ofDigitChars 10 s n < (n + 1) * 10 ^ s.length := by
  induction s generalizing n with
  | nil => simp [Nat.ofDigitChars]
  | cons c r ih =>
    have hc := (h c (by simp)).2
    have h9 : c.toNat ≤ 57 := hc
    have := ih (fun d hd => h d (by simp [hd])) (10 * n + (c.toNat - '0'.toNat))
    have e : Nat.ofDigitChars 10 (c :: r) n =
      Nat.ofDigitChars 10 r (10 * n + (c.toNat - '0'.toNat)) := by
      simp [Nat.ofDigitChars]
    rw [e]
    refine Nat.lt_of_lt_of_le this ?_
    rw [List.length_cons, Nat.pow_succ]
    have h0 : '0'.toNat = 48 := rfl
    have : 10 * n + (c.toNat - '0'.toNat) + 1 ≤ (n + 1) * 10 := by omega
    calc (10 * n + (c.toNat - '0'.toNat) + 1) * 10 ^ r.length
        ≤ ((n + 1) * 10) * 10 ^ r.length := Nat.mul_le_mul_right _ this
      _ = (n + 1) * (10 ^ r.length * 10) := by rw [Nat.mul_assoc, Nat.mul_comm 10]

theorem parseInt64_digits {x : Str} (h0 : x ≠ []) (h1 : x.length ≤ 18)
    (h2 : ∀ c ∈ x, '0' ≤ c ∧ c ≤ '9') : (parseInt64 x).isSome = true := by
  have hd : parseDigits x = some (Nat.ofDigitChars 10 x 0) := by
    unfold parseDigits
    rw [if_pos]
    refine ⟨h0, ?_⟩
    rw [List.all_eq_true]
    intro c hc
    have := h2 c hc
    simp [isDigit, this.1, this.2]
  have hlt := ofDigitChars_lt x h2 0
  have hp : 10 ^ x.length ≤ 10 ^ 18 := Nat.pow_le_pow_right (by decide) h1
  have hlt' : Nat.ofDigitChars 10 x 0 < 2 ^ 63 := by
    have h18 : (10 : Nat) ^ 18 < 2 ^ 63 := by decide
    omega
  unfold parseInt64
  split
  · have := h2 '-' (by simp)
    exact absurd this.1 (by decide)
  · have := h2 '+' (by simp)
    exact absurd this.1 (by decide)
  · rw [hd]
    simp only
    rw [if_pos hlt']; rfl

/-- A constant is taken for a literal. -/
theorem isLiteral_constant {s x : Str} (isFloat : Str → Bool) (h : Uncast s x) (hx : Constant x) :
    Postgres.isLiteral isFloat (normalizeColumnDefault .postgres s) = true := by
  have h3 := pg_classify s x h
  simp only at h3
  unfold Postgres.isLiteral
  have hk : ∀ u ∈ [b!"CURRENT_DATE", b!"CURRENT_TIME", b!"NULL"],
    [b!"TRUE", b!"FALSE", b!"CURRENT_DATE", b!"CURRENT_TIME", b!"CURRENT_TIMESTAMP", b!"NULL"].contains
      u = true := by decide
  rcases h3 with ⟨_, h⟩ | ⟨_, h⟩ | ⟨h2, h⟩ | ⟨_, h⟩ | h
  · rw [h]; rfl
  · rw [h]; rfl
  · rw [h, toUpper_idem, hk _ h2]; simp
  · rw [h]
    have : [b!"TRUE", b!"FALSE", b!"CURRENT_DATE", b!"CURRENT_TIME", b!"CURRENT_TIMESTAMP",
      b!"NULL"].contains (Go.toUpper b!"CURRENT_TIMESTAMP") = true := by decide
    rw [this]; simp
  · rw [h]
    rcases hx with hx | ⟨h0, h1, h2⟩ | hx
    · simp [hx]
    · rw [parseInt64_digits h0 h1 h2]; simp
    · have : [b!"TRUE", b!"FALSE", b!"CURRENT_DATE", b!"CURRENT_TIME", b!"CURRENT_TIMESTAMP",
        b!"NULL"].contains (Go.toUpper x) = true := by
        rw [List.contains_iff_mem]
        have hs : ∀ u ∈ [b!"TRUE", b!"FALSE", b!"NULL", b!"CURRENT_DATE", b!"CURRENT_TIME",
            b!"CURRENT_TIMESTAMP"], u ∈ [b!"TRUE", b!"FALSE", b!"CURRENT_DATE", b!"CURRENT_TIME",
            b!"CURRENT_TIMESTAMP", b!"NULL"] := by decide
        exact hs _ hx
      rw [this]; simp

/-- Types that compare as equal. -/
theorem sameType {a b : Str} (h : normType .postgres a = normType .postgres b) : SameType a b :=
  normType_same_partial h

end PgSpec
