import Verif.Model.Ddl
import Verif.Spec.Ddl

/-!
# Column types (C27, C60) and column defaults (C28)
-/

namespace Sqddl
open DdlSpec

/-! ## Lemmas about characters and white space -/

theorem upperC_lowerC (c : Char) : Go.upperC (Go.lowerC c) = Go.upperC c := by
  unfold Go.lowerC
  split
  · rename_i h
    obtain ⟨h1, h2⟩ := h
    rw [Char.le_def, UInt32.le_iff_toNat_le] at h1 h2
    have h3 : 'A'.val.toNat = 65 := by decide
    have h4 : 'Z'.val.toNat = 90 := by decide
    rw [h3] at h1
    rw [h4] at h2
    have : ∀ n : Nat, 65 ≤ n → n ≤ 90 → Go.upperC (Char.ofNat (n + 32)) = Go.upperC (Char.ofNat n) := by
      intro n h1 h2
      obtain ⟨k, rfl⟩ : ∃ k, n = 65 + k := ⟨n - 65, by omega⟩
      have hk : k < 26 := by omega
      clear h1 h2
      revert hk
      exact (by decide : ∀ k : Fin 26, Go.upperC (Char.ofNat (65 + k.1 + 32)) =
        Go.upperC (Char.ofNat (65 + k.1))) |> fun h hk => h ⟨k, hk⟩
    have h5 := this c.toNat h1 h2
    rw [h5, Char.ofNat_toNat]
  · rfl

theorem char_split (P : Char → Prop) (hs : ∀ n : Fin 128, P (Char.ofNat n))
    (hb : ∀ c : Char, 128 ≤ c.toNat → P c) (c : Char) : P c := by
  by_cases h : c.toNat < 128
  · have := hs ⟨c.toNat, h⟩
    simpa [Char.ofNat_toNat] using this
  · exact hb c (by omega)

theorem upperC_big (c : Char) (h : 123 ≤ c.toNat) : Go.upperC c = c := by
  unfold Go.upperC
  rw [if_neg]
  rintro ⟨_, h2⟩
  rw [Char.le_def, UInt32.le_iff_toNat_le] at h2
  have h4 : 'z'.val.toNat = 122 := by decide
  have : c.val.toNat = c.toNat := rfl
  omega

theorem isSpace_big (c : Char) (h : 123 ≤ c.toNat) : Go.isSpace c = false := by
  have : ∀ d : Char, d.toNat < 123 → (c == d) = false := by
    intro d hd
    rw [beq_eq_false_iff_ne]
    rintro rfl
    omega
  unfold Go.isSpace
  simp [this ' ' (by decide), this '\t' (by decide), this '\n' (by decide), this '\r' (by decide),
    this '\x0b' (by decide), this '\x0c' (by decide)]

theorem isSpace_upperC (c : Char) : Go.isSpace (Go.upperC c) = Go.isSpace c := by
  apply char_split (fun c => Go.isSpace (Go.upperC c) = Go.isSpace c)
  · decide
  · intro c h; rw [upperC_big c (by omega)]

theorem upperC_upperC (c : Char) : Go.upperC (Go.upperC c) = Go.upperC c := by
  apply char_split (fun c => Go.upperC (Go.upperC c) = Go.upperC c)
  · decide
  · intro c h; rw [upperC_big c (by omega), upperC_big c (by omega)]

theorem dropWhile_map_upper (s : Str) :
    (s.map Go.upperC).dropWhile Go.isSpace = (s.dropWhile Go.isSpace).map Go.upperC := by
  induction s with
  | nil => rfl
  | cons c s ih =>
    simp only [List.map_cons, List.dropWhile_cons, isSpace_upperC]
    split <;> simp [ih]

theorem toUpper_trimSpace (s : Str) : Go.toUpper (Go.trimSpace s) = Go.trimSpace (Go.toUpper s) := by
  unfold Go.toUpper Go.trimSpace
  rw [dropWhile_map_upper, ← List.map_reverse, dropWhile_map_upper, List.map_reverse]

theorem trimSpace_pad (pre s post : Str) (h1 : ∀ c ∈ pre, Go.isSpace c = true)
    (h2 : ∀ c ∈ post, Go.isSpace c = true) : Go.trimSpace (pre ++ s ++ post) = Go.trimSpace s := by
  have hd : ∀ (a b : Str), (∀ c ∈ a, Go.isSpace c = true) →
      (a ++ b).dropWhile Go.isSpace = b.dropWhile Go.isSpace := by
    intro a b h
    induction a with
    | nil => rfl
    | cons c a ih => simp [h c (by simp), ih fun c hc => h c (by simp [hc])]
  unfold Go.trimSpace
  rw [List.append_assoc, hd pre _ h1, List.dropWhile_append]
  split
  · rename_i he
    have he' : s.dropWhile Go.isSpace = [] := by simpa using he
    have := hd post [] h2
    simp at this
    simp [he', this]
  · rw [List.reverse_append, hd _ _ (by simpa using h2)]

theorem toUpper_same {s t : Str} (h : SameUpToCase s t) : Go.toUpper s = Go.toUpper t := by
  have hf : Go.upperC ∘ Go.lowerC = Go.upperC := funext upperC_lowerC
  have := congrArg (List.map Go.upperC) h
  simpa [Go.toUpper, hf] using this

/-- **C27**: letter case and surrounding blanks do not matter. -/
theorem normalizeColumnType_case (d : Dialect) (s t pre post : Str)
    (h : SameUpToCase s t) (h1 : ∀ c ∈ pre, Go.isSpace c = true)
    (h2 : ∀ c ∈ post, Go.isSpace c = true) :
    normalizeColumnType d (pre ++ t ++ post) = normalizeColumnType d s := by
  unfold normalizeColumnType
  rw [trimSpace_pad pre t post h1 h2, toUpper_trimSpace, toUpper_trimSpace, toUpper_same h]

example : SameUpToCase b!"Character Varying(255)" b!"CHARACTER VARYING(255)" := by
  unfold SameUpToCase; decide

/-! ## Brackets -/

theorem mem_trimSpace (c : Char) (h : Go.isSpace c = false) (s : Str) :
    c ∈ Go.trimSpace s ↔ c ∈ s := by
  have hd : ∀ s : Str, c ∈ s.dropWhile Go.isSpace ↔ c ∈ s := by
    intro s
    induction s with
    | nil => simp
    | cons x s ih =>
      rw [List.dropWhile_cons]
      split
      · rename_i hx
        rw [ih, List.mem_cons]
        constructor
        · exact Or.inr
        · rintro (rfl | h')
          · simp [h] at hx
          · exact h'
      · rfl
  unfold Go.trimSpace
  rw [List.mem_reverse, hd, List.mem_reverse, hd]

theorem mem_toUpper (c : Char) (h : c.toNat < 65) (s : Str) : c ∈ Go.toUpper s ↔ c ∈ s := by
  have key : ∀ x : Char, Go.upperC x = c ↔ x = c := by
    intro x
    have h1 : Go.upperC x = x ∨ (65 ≤ (Go.upperC x).toNat ∧ 65 ≤ x.toNat) := by
      apply char_split (fun x => Go.upperC x = x ∨ (65 ≤ (Go.upperC x).toNat ∧ 65 ≤ x.toNat))
      · decide
      · intro c h; exact Or.inl (upperC_big c (by omega))
    rcases h1 with h1 | h1
    · rw [h1]
    · constructor
      · rintro rfl; omega
      · rintro rfl; omega
  unfold Go.toUpper
  rw [List.mem_map]
  constructor
  · rintro ⟨x, hx, he⟩; rw [key] at he; exact he ▸ hx
  · intro hc; exact ⟨c, hc, (key c).2 rfl⟩

theorem indexByte_none (s : Str) (c : Char) : Go.indexByte s c = none ↔ c ∉ s := by
  unfold Go.indexByte
  rw [List.findIdx?_eq_none_iff]
  constructor
  · intro h hc; simpa using h c hc
  · intro h x hx; simp; rintro rfl; exact h hx

theorem lastIndexByte_none (s : Str) (c : Char) : Go.lastIndexByte s c = none ↔ c ∉ s := by
  have := indexByte_none s.reverse c
  unfold Go.indexByte at this
  simp [Go.lastIndexByte, this]

/-- What happens to a type in which `)` occurs but no `(`: the program panics.  For all other
inputs a result is returned. -/
theorem normalizeColumnType_panics (d : Dialect) (s : Str) :
    normalizeColumnType d s = none ↔ '(' ∉ s ∧ ')' ∈ s := by
  have hm : ∀ c : Char, c.toNat < 65 → Go.isSpace c = false →
      (c ∈ Go.toUpper (Go.trimSpace s) ↔ c ∈ s) := by
    intro c h1 h2; rw [mem_toUpper c h1, mem_trimSpace c h2]
  rw [← hm '(' (by decide) (by decide), ← hm ')' (by decide) (by decide)]
  have key : normalizeColumnType d s = none ↔ typeArgs (Go.toUpper (Go.trimSpace s)) = none := by
    unfold normalizeColumnType
    split
    · simp_all
    · rename_i h; rw [h]; cases d <;> simp
  rw [key]
  generalize Go.toUpper (Go.trimSpace s) = t
  have h1 := indexByte_none t '('
  have h2 := lastIndexByte_none t ')'
  unfold typeArgs
  cases hi : Go.indexByte t '(' with
  | none =>
    cases hj : Go.lastIndexByte t ')' with
    | none => simp_all
    | some j =>
      simp only [hi, hj, true_iff, reduceCtorEq, false_iff, Classical.not_not] at *
      exact ⟨h1, h2⟩
  | some i =>
    cases hj : Go.lastIndexByte t ')' with
    | none => simp_all
    | some j =>
      simp only [hi, reduceCtorEq, false_iff, Classical.not_not] at h1
      simp only [h1, not_true_eq_false, false_and, iff_false]
      split
      · split <;> simp
      · simp

/-- **C27, refuted** in part: the column type `int)` crashes the program. -/
theorem normalizeColumnType_total_refuted :
    ¬ ∀ d s, normalizeColumnType d s ≠ none := by
  intro h
  exact h .postgres b!"int)" ((normalizeColumnType_panics _ _).2 (by decide))

/-! ## Aliases -/

/-- the arguments in the brackets -/
def argPair (x : Str) : Str × Str :=
  match Go.indexByte (Go.trimSpace x) ',' with
  | some k => (Go.trimSpace ((Go.trimSpace x).take k), Go.trimSpace ((Go.trimSpace x).drop (k + 1)))
  | none => (Go.trimSpace (Go.trimSpace x), [])

theorem typeArgs_brackets (base x : Str) (h : '(' ∉ base) :
    typeArgs (base ++ '(' :: (x ++ [')'])) =
      some (Go.trimSpace base, (argPair x).1, (argPair x).2, []) := by
  have hi : Go.indexByte (base ++ '(' :: (x ++ [')'])) '(' = some base.length := by
    unfold Go.indexByte
    rw [List.findIdx?_append]
    have : List.findIdx? (· == '(') base = none := (indexByte_none base '(').2 h
    rw [this, List.findIdx?_cons]
    simp
  have hj : Go.lastIndexByte (base ++ '(' :: (x ++ [')'])) ')' = some (base.length + 1 + x.length) := by
    unfold Go.lastIndexByte
    rw [show (base ++ '(' :: (x ++ [')'])).reverse = ')' :: (x.reverse ++ '(' :: base.reverse) by simp,
      List.findIdx?_cons]
    simp
    omega
  unfold typeArgs
  simp only [hi, hj]
  rw [if_pos (by omega)]
  have h1 : ((base ++ '(' :: (x ++ [')'])).take (base.length + 1 + x.length)).drop (base.length + 1) = x := by
    rw [List.take_append, List.drop_append]
    simp [show base.length + 1 + x.length - base.length = x.length + 1 by omega,
      List.take_of_length_le (show base.length ≤ base.length + 1 + x.length by omega)]
  have h2 : (base ++ '(' :: (x ++ [')'])).drop (base.length + 1 + x.length + 1) = [] := by
    apply List.drop_of_length_le
    simp; omega
  have h3 : (base ++ '(' :: (x ++ [')'])).take base.length = base := by simp
  rw [h1, h2, h3]
  unfold argPair
  split
  · rename_i hk; simp [hk]; decide
  · rename_i hk; simp [hk]; decide

theorem typeArgs_plain (t : Str) (h : ')' ∉ t) : typeArgs t = some (t, [], [], []) := by
  have h2 := (lastIndexByte_none t ')').2 h
  unfold typeArgs
  rw [h2]
  cases Go.indexByte t '(' <;> rfl

theorem trimSpace_eq_self (a : Char) (m : Str) (b : Char) (ha : Go.isSpace a = false)
    (hb : Go.isSpace b = false) : Go.trimSpace (a :: m ++ [b]) = a :: m ++ [b] := by
  simp [Go.trimSpace, ha, hb]

/-- **C27**: all aliases of a type normalise to the same name, with and without arguments; the
same for the array types of Postgres and the unsigned types of MySQL. -/
theorem normalizeColumnType_aliases (d : Dialect) (a c : Str) (h : (a, c) ∈ aliases d)
    (hb : ¬ (d = .mysql ∧ c = b!"tinyint")) (args : Str) :
    normalizeColumnType d (a ++ '(' :: (args ++ [')'])) =
      normalizeColumnType d (c ++ '(' :: (args ++ [')'])) ∧
    normalizeColumnType d a = normalizeColumnType d c ∧
    (d = .postgres → normalizeColumnType d (a ++ b!"[]") = normalizeColumnType d (c ++ b!"[]")) ∧
    (d = .mysql →
      normalizeColumnType d (a ++ b!" unsigned") = normalizeColumnType d (c ++ b!" unsigned")) := by
  have hn : ∀ (w : Str), w ≠ [] → Go.isSpace w.head! = false → '(' ∉ Go.toUpper w →
      typeArgs (Go.toUpper (Go.trimSpace (w ++ '(' :: (args ++ [')'])))) =
        some (Go.trimSpace (Go.toUpper w), (argPair (Go.toUpper args)).1,
          (argPair (Go.toUpper args)).2, []) := by
    intro w hne hw hp
    cases w with
    | nil => simp at hne
    | cons w ws =>
      rw [show w :: ws ++ '(' :: (args ++ [')']) = w :: (ws ++ '(' :: args) ++ [')'] by simp,
        trimSpace_eq_self _ _ _ (by exact hw) (by decide)]
      rw [show Go.toUpper (w :: (ws ++ '(' :: args) ++ [')']) =
        Go.toUpper (w :: ws) ++ '(' :: (Go.toUpper args ++ [')']) by simp [Go.toUpper]; decide]
      exact typeArgs_brackets _ _ hp
  unfold normalizeColumnType
  generalize argPair (Go.toUpper args) = pr at hn
  cases d with
  | postgres =>
    have := (by decide +kernel : ∀ x ∈ aliases .postgres,
      (x.1 ≠ [] ∧ Go.isSpace x.1.head! = false ∧ '(' ∉ Go.toUpper x.1) ∧
      (x.2 ≠ [] ∧ Go.isSpace x.2.head! = false ∧ '(' ∉ Go.toUpper x.2) ∧
      pgType (Go.trimSpace (Go.toUpper x.1)) [] = pgType (Go.trimSpace (Go.toUpper x.2)) [] ∧
      normalizeColumnType .postgres x.1 = normalizeColumnType .postgres x.2 ∧
      normalizeColumnType .postgres (x.1 ++ b!"[]") = normalizeColumnType .postgres (x.2 ++ b!"[]"))
      (a, c) h
    obtain ⟨⟨h1, h2, h3⟩, ⟨h4, h5, h6⟩, h7, h8, h9⟩ := this
    rw [hn a h1 h2 h3, hn c h4 h5 h6]
    exact ⟨by simp [h7], h8, fun _ => h9, by simp⟩
  | sqlserver =>
    have := (by decide +kernel : ∀ x ∈ aliases .sqlserver,
      (x.1 ≠ [] ∧ Go.isSpace x.1.head! = false ∧ '(' ∉ Go.toUpper x.1) ∧
      (x.2 ≠ [] ∧ Go.isSpace x.2.head! = false ∧ '(' ∉ Go.toUpper x.2) ∧
      sqlserverType (Go.trimSpace (Go.toUpper x.1)) = sqlserverType (Go.trimSpace (Go.toUpper x.2)) ∧
      normalizeColumnType .sqlserver x.1 = normalizeColumnType .sqlserver x.2)
      (a, c) h
    obtain ⟨⟨h1, h2, h3⟩, ⟨h4, h5, h6⟩, h7, h8⟩ := this
    rw [hn a h1 h2 h3, hn c h4 h5 h6]
    exact ⟨by simp [h7], h8, by simp, by simp⟩
  | mysql =>
    have := (by decide +kernel : ∀ x ∈ aliases .mysql, x.2 ≠ b!"tinyint" →
      (x.1 ≠ [] ∧ Go.isSpace x.1.head! = false ∧ '(' ∉ Go.toUpper x.1) ∧
      (x.2 ≠ [] ∧ Go.isSpace x.2.head! = false ∧ '(' ∉ Go.toUpper x.2) ∧
      normalizeColumnType .mysql x.1 = normalizeColumnType .mysql x.2 ∧
      normalizeColumnType .mysql (x.1 ++ b!" unsigned") =
        normalizeColumnType .mysql (x.2 ++ b!" unsigned"))
      (a, c) h (by simpa using hb)
    obtain ⟨⟨h1, h2, h3⟩, ⟨h4, h5, h6⟩, h8, h9⟩ := this
    rw [hn a h1 h2 h3, hn c h4 h5 h6]
    refine ⟨?_, h8, by simp, fun _ => h9⟩
    have h7 : ∀ x ∈ aliases .mysql, x.2 ≠ b!"tinyint" → ∀ p q,
        mysqlType (Go.trimSpace (Go.toUpper x.1)) p q = mysqlType (Go.trimSpace (Go.toUpper x.2)) p q := by
      intro x hx hx2 p q
      have e1 : Go.trimSpace (Go.toUpper b!"integer") = b!"INTEGER" := by decide
      have e2 : Go.trimSpace (Go.toUpper b!"int") = b!"INT" := by decide
      have e3 : Go.trimSpace (Go.toUpper b!"dec") = b!"DEC" := by decide
      have e4 : Go.trimSpace (Go.toUpper b!"decimal") = b!"DECIMAL" := by decide
      have e5 : Go.trimSpace (Go.toUpper b!"numeric") = b!"NUMERIC" := by decide
      simp [aliases] at hx
      rcases hx with rfl | rfl | rfl | rfl | rfl
      · rw [e1, e2]; rfl
      · rw [e3, e5]; rfl
      · rw [e4, e5]; rfl
      · simp at hx2
      · simp at hx2
    simp [h7 (a, c) h (by simpa using hb)]
  | sqlite => simp [aliases] at h
  | oracle => simp [aliases] at h
  | other => simp [aliases] at h

example : (b!"character varying", b!"varchar") ∈ aliases .postgres ∧
    normalizeColumnType .postgres b!"Character  Varying (255)" =
      some (b!"VARCHAR", b!"255", []) := by decide +kernel

/-- **C27**: MySQL's BOOL and BOOLEAN are TINYINT(1). -/
theorem normalizeColumnType_mysql_bool (a : Str) (h : a = b!"bool" ∨ a = b!"boolean") :
    normalizeColumnType .mysql a = normalizeColumnType .mysql b!"tinyint(1)" := by
  rcases h with rfl | rfl <;> decide +kernel

example : normalizeColumnType .mysql b!"bool" = some (b!"TINYINT", b!"1", []) := by decide +kernel

/-! ## Stability -/

theorem hasSuffix_iff' (s p : Str) : Go.hasSuffix s p = true ↔ ∃ a, s = a ++ p := by
  unfold Go.hasSuffix
  rw [List.isSuffixOf_iff_suffix]
  exact ⟨fun ⟨a, h⟩ => ⟨a, h.symm⟩, fun ⟨a, h⟩ => ⟨a, h.symm⟩⟩

theorem lookup_mem {n c : Str} {l : List (Str × Str)} (h : l.lookup n = some c) :
    (n, c) ∈ l := by
  induction l with
  | nil => simp at h
  | cons x l ih =>
    rw [List.lookup_cons] at h
    split at h
    · rename_i hx; simp at hx h; rw [hx, ← h]; simp
    · exact List.mem_cons_of_mem _ (ih h)

/-- the results of the Postgres switch -/
def pgResults : List Str := pgTypeTable.map (·.2) ++ [b!"TIMESTAMPTZ", b!"TIMETZ"]

theorem pgTypeName_cases (b sfx : Str) :
    (pgTypeName b sfx = b ∧ pgTypeName b [] = b) ∨ pgTypeName b sfx ∈ pgResults := by
  unfold pgTypeName
  split
  · rename_i c hc
    right
    exact List.mem_append_left _ (List.mem_map_of_mem (f := (·.2)) (lookup_mem hc))
  · have : ¬ Go.removeSpaces [] = b!"WITHTIMEZONE" := by decide
    simp only [this, and_false, if_false]
    split
    · right; decide
    · split
      · right; decide
      · left; simp

theorem pgTypeName_idem (b sfx : Str) : pgTypeName (pgTypeName b sfx) [] = pgTypeName b sfx := by
  rcases pgTypeName_cases b sfx with h | h
  · rw [h.1, h.2]
  · revert h
    generalize pgTypeName b sfx = n
    revert n
    decide

theorem pgType_idem (b sfx : Str) : pgType (pgType b sfx) [] = pgType b sfx := by
  unfold pgType
  by_cases hb : Go.hasSuffix b b!"[]" = true
  · rw [if_pos hb]
    generalize hn : pgTypeName (b.take (b.length - 2)) sfx = n
    have h1 : Go.hasSuffix (n ++ b!"[]") b!"[]" = true := (hasSuffix_iff' _ _).2 ⟨n, rfl⟩
    rw [if_pos h1]
    simp [← hn, pgTypeName_idem]
  · rw [if_neg hb]
    have h1 : ¬ Go.hasSuffix (pgTypeName b sfx) b!"[]" = true := by
      rcases pgTypeName_cases b sfx with h | h
      · rwa [h.1]
      · revert h
        generalize pgTypeName b sfx = n
        revert n
        decide
    rw [if_neg h1, pgTypeName_idem]

theorem mysqlTypeName_cases (b p q : Str) :
    ((mysqlTypeName b p q).1 = b ∧ ∀ p' q', (mysqlTypeName b p' q').1 = b) ∨
    (mysqlTypeName b p q).1 ∈ [b!"INT", b!"NUMERIC", b!"TINYINT"] := by
  unfold mysqlTypeName
  generalize Go.removeSpaces b = n
  simp only
  by_cases h1 : n = b!"INTEGER"
  · rw [if_pos h1]; exact Or.inr (by simp)
  by_cases h2 : n ∈ [b!"DEC", b!"DECIMAL"]
  · rw [if_neg h1, if_pos h2]; exact Or.inr (by simp)
  by_cases h3 : n ∈ [b!"BOOL", b!"BOOLEAN"]
  · rw [if_neg h1, if_neg h2, if_pos h3]; exact Or.inr (by simp)
  left
  simp only [if_neg h1, if_neg h2, if_neg h3]
  constructor
  · split
    · rfl
    · split <;> rfl
  · intro p' q'
    split
    · rfl
    · split <;> rfl

theorem mysqlTypeName_const (n : Str) (h : n ∈ [b!"INT", b!"NUMERIC", b!"TINYINT"]) (p q : Str) :
    (mysqlTypeName n p q).1 = n ∧ Go.hasSuffix n b!" UNSIGNED" = false ∧
      Go.hasSuffix n b!" SIGNED" = false := by
  simp at h
  rcases h with rfl | rfl | rfl <;> exact ⟨rfl, rfl, rfl⟩

theorem mysqlTypeName_idem (b p q p' q' : Str) :
    (mysqlTypeName (mysqlTypeName b p q).1 p' q').1 = (mysqlTypeName b p q).1 := by
  rcases mysqlTypeName_cases b p q with h | h
  · rw [h.1, h.2]
  · exact (mysqlTypeName_const _ h p' q').1

theorem trimSuffix_append (a p : Str) : Go.trimSuffix (a ++ p) p = a := by
  unfold Go.trimSuffix
  rw [if_pos ((hasSuffix_iff' _ _).2 ⟨a, rfl⟩)]
  simp

theorem trimSuffix_of_not {s p : Str} (h : Go.hasSuffix s p = false) : Go.trimSuffix s p = s := by
  unfold Go.trimSuffix; simp [h]

/-- a type name that does not end in a double SIGNED: after normalisation the sign is gone -/
theorem mysqlType_sign (b p q : Str) (hs : ¬ ∃ a c, b = a ++ b!"SIGNED SIGNED" ++ c)
    (hu : Go.hasSuffix b b!" UNSIGNED" = false) :
    Go.hasSuffix (mysqlType b p q).1 b!" UNSIGNED" = false ∧
    Go.hasSuffix (mysqlType b p q).1 b!" SIGNED" = false := by
  unfold mysqlType
  rw [hu]
  simp only [Bool.false_eq_true, if_false]
  rcases mysqlTypeName_cases (Go.trimSuffix b b!" SIGNED") p q with h | h
  · rw [h.1]
    by_cases h1 : Go.hasSuffix b b!" SIGNED" = true
    · obtain ⟨a, rfl⟩ := (hasSuffix_iff' _ _).1 h1
      rw [trimSuffix_append]
      constructor
      · rw [Bool.eq_false_iff]
        intro h2
        obtain ⟨a', rfl⟩ := (hasSuffix_iff' _ _).1 h2
        exact hs ⟨a' ++ b!" UN", [], by simp⟩
      · rw [Bool.eq_false_iff]
        intro h2
        obtain ⟨a', rfl⟩ := (hasSuffix_iff' _ _).1 h2
        exact hs ⟨a' ++ b!" ", [], by simp⟩
    · simp only [Bool.not_eq_true] at h1
      rw [trimSuffix_of_not h1]
      exact ⟨hu, h1⟩
  · have := mysqlTypeName_const _ h [] []
    exact ⟨this.2.1, this.2.2⟩

theorem mysqlType_idem (b p q p' q' : Str) (hs : ¬ ∃ a c, b = a ++ b!"SIGNED SIGNED" ++ c) :
    (mysqlType (mysqlType b p q).1 p' q').1 = (mysqlType b p q).1 := by
  by_cases hu : Go.hasSuffix b b!" UNSIGNED" = true
  · obtain ⟨a, rfl⟩ := (hasSuffix_iff' _ _).1 hu
    have h1 : ∀ x p q, (mysqlType (x ++ b!" UNSIGNED") p q).1 =
        (mysqlTypeName x p q).1 ++ b!" UNSIGNED" := by
      intro x p q
      unfold mysqlType
      rw [if_pos ((hasSuffix_iff' _ _).2 ⟨x, rfl⟩), trimSuffix_append]
    rw [h1, h1, mysqlTypeName_idem]
  · simp only [Bool.not_eq_true] at hu
    have h1 := mysqlType_sign b p q hs hu
    have h2 : ∀ x p q, Go.hasSuffix x b!" UNSIGNED" = false →
        (mysqlType x p q).1 = (mysqlTypeName (Go.trimSuffix x b!" SIGNED") p q).1 := by
      intro x p q h
      unfold mysqlType
      simp [h]
    rw [h2 _ _ _ h1.1, trimSuffix_of_not h1.2, h2 _ _ _ hu, mysqlTypeName_idem]

theorem sqlserverType_idem (b : Str) : sqlserverType (sqlserverType b) = sqlserverType b := by
  have h : (sqlserverType b = b) ∨ sqlserverType b ∈ [b!"VARBINARY", b!"INT", b!"NVARCHAR",
      b!"VARCHAR", b!"CHAR", b!"NUMERIC"] := by
    unfold sqlserverType
    split
    · rename_i c hc
      right
      have : c ∈ List.map Prod.snd sqlserverTypeTable := List.mem_map_of_mem (f := Prod.snd) (lookup_mem hc)
      revert this
      generalize c = c'
      revert c'
      decide
    · exact Or.inl rfl
  rcases h with h | h
  · rw [h, h]
  · revert h
    generalize sqlserverType b = n
    revert n
    decide

theorem trimSpace_infix (s : Str) : ∃ a b, s = a ++ Go.trimSpace s ++ b := by
  unfold Go.trimSpace
  have h1 := List.takeWhile_append_dropWhile (p := Go.isSpace) (l := s)
  have h2 := List.takeWhile_append_dropWhile (p := Go.isSpace) (l := (s.dropWhile Go.isSpace).reverse)
  have h3 := congrArg List.reverse h2
  simp only [List.reverse_append, List.reverse_reverse] at h3
  refine ⟨s.takeWhile Go.isSpace, (List.takeWhile Go.isSpace (List.dropWhile Go.isSpace s).reverse).reverse, ?_⟩
  rw [List.append_assoc, h3, h1]

/-- the base type is a part of the text -/
theorem typeArgs_infix {t base a1 a2 sfx : Str} (h : typeArgs t = some (base, a1, a2, sfx)) :
    ∃ a b, t = a ++ base ++ b := by
  unfold typeArgs at h
  cases hi : Go.indexByte t '(' with
  | none =>
    cases hj : Go.lastIndexByte t ')' with
    | none => simp only [hi, hj, Option.some.injEq, Prod.mk.injEq] at h; exact ⟨[], [], by simp [h.1]⟩
    | some j => simp [hi, hj] at h
  | some i =>
    cases hj : Go.lastIndexByte t ')' with
    | none => simp only [hi, hj, Option.some.injEq, Prod.mk.injEq] at h; exact ⟨[], [], by simp [h.1]⟩
    | some j =>
      simp only [hi, hj] at h
      have key : ∃ a b, t = a ++ Go.trimSpace (t.take i) ++ b := by
        obtain ⟨a, b, h1⟩ := trimSpace_infix (t.take i)
        refine ⟨a, b ++ t.drop i, ?_⟩
        rw [← List.append_assoc, ← h1, List.take_append_drop]
      split at h
      · split at h
        · simp only [Option.some.injEq, Prod.mk.injEq] at h; rw [← h.1]; exact key
        · simp only [Option.some.injEq, Prod.mk.injEq] at h; rw [← h.1]; exact key
      · simp only [Option.some.injEq, Prod.mk.injEq] at h; exact ⟨[], [], by simp [h.1]⟩

theorem toUpper_eq_iff (s : Str) : Go.toUpper s = s ↔ ∀ c ∈ s, Go.upperC c = c := by
  unfold Go.toUpper
  induction s with
  | nil => simp
  | cons c s ih => simp [ih]

theorem toUpper_of_infix {s b a c : Str} (h : Go.toUpper s = a ++ b ++ c) : Go.toUpper b = b := by
  rw [toUpper_eq_iff]
  intro x hx
  have : x ∈ Go.toUpper s := by rw [h]; simp [hx]
  unfold Go.toUpper at this
  obtain ⟨y, _, rfl⟩ := List.mem_map.1 this
  exact upperC_upperC y

theorem toUpper_append (a b : Str) : Go.toUpper (a ++ b) = Go.toUpper a ++ Go.toUpper b := by
  simp [Go.toUpper]

theorem pgType_upper (b sfx : Str) (h : Go.toUpper b = b) : Go.toUpper (pgType b sfx) = pgType b sfx := by
  have key : ∀ x, Go.toUpper x = x → Go.toUpper (pgTypeName x sfx) = pgTypeName x sfx := by
    intro x hx
    rcases pgTypeName_cases x sfx with h | h
    · rw [h.1, hx]
    · revert h
      generalize pgTypeName x sfx = n
      revert n
      decide
  unfold pgType
  split
  · rw [toUpper_append, key]
    · rfl
    · rw [toUpper_eq_iff] at *
      intro c hc
      exact h c (List.mem_of_mem_take hc)
  · exact key b h

theorem mysqlType_upper (b p q : Str) (h : Go.toUpper b = b) :
    Go.toUpper (mysqlType b p q).1 = (mysqlType b p q).1 := by
  have key : ∀ x, Go.toUpper x = x → Go.toUpper (mysqlTypeName x p q).1 = (mysqlTypeName x p q).1 := by
    intro x hx
    rcases mysqlTypeName_cases x p q with h | h
    · rw [h.1, hx]
    · revert h
      generalize (mysqlTypeName x p q).1 = n
      revert n
      decide
  have hsub : ∀ y, Go.toUpper (Go.trimSuffix b y) = Go.trimSuffix b y := by
    intro y
    unfold Go.trimSuffix
    split
    · rw [toUpper_eq_iff] at *
      intro c hc
      exact h c (List.mem_of_mem_take hc)
    · exact h
  unfold mysqlType
  split
  · simp only
    rw [toUpper_append, key _ (hsub _)]
    rfl
  · exact key _ (hsub _)

theorem sqlserverType_upper (b : Str) (h : Go.toUpper b = b) :
    Go.toUpper (sqlserverType b) = sqlserverType b := by
  unfold sqlserverType
  split
  · rename_i c hc
    have : c ∈ List.map Prod.snd sqlserverTypeTable := List.mem_map_of_mem (f := Prod.snd) (lookup_mem hc)
    revert this
    generalize c = c'
    revert c'
    decide
  · exact h

/-- **C27, partial**: normalising a normalised type name changes nothing.  Missing: type names
with a closing bracket in the middle or with blanks at the end, and MySQL types with a doubled
SIGNED, see `normalizeColumnType_stable_refuted`. -/
theorem normalizeColumnType_stable_partial (d : Dialect) (s n a1 a2 : Str)
    (h : normalizeColumnType d s = some (n, a1, a2)) (hb : ')' ∉ n) (ht : Go.trimSpace n = n)
    (hm : d = .mysql → ¬ ∃ a b, Go.toUpper s = a ++ b!"SIGNED SIGNED" ++ b) :
    ∃ b1 b2, normalizeColumnType d n = some (n, b1, b2) := by
  unfold normalizeColumnType at h
  split at h
  · simp at h
  · rename_i base arg1 arg2 sfx hta
    obtain ⟨x, y, hxy⟩ := typeArgs_infix hta
    have hup : Go.toUpper base = base := toUpper_of_infix hxy
    have hinf : ∃ x y, Go.toUpper s = x ++ base ++ y := by
      rw [toUpper_trimSpace] at hxy
      obtain ⟨a, b, hab⟩ := trimSpace_infix (Go.toUpper s)
      refine ⟨a ++ x, y ++ b, ?_⟩
      rw [hxy] at hab
      rw [hab]; simp
    have key : Go.toUpper n = n → typeArgs (Go.toUpper (Go.trimSpace n)) = some (n, [], [], []) := by
      intro hn; rw [ht, hn, typeArgs_plain n hb]
    unfold normalizeColumnType
    cases d with
    | postgres =>
      simp only [Option.some.injEq, Prod.mk.injEq] at h
      rw [key (by rw [← h.1]; exact pgType_upper _ _ hup)]
      exact ⟨[], [], by simp [← h.1, pgType_idem]⟩
    | mysql =>
      simp only [Option.some.injEq] at h
      have hn : n = (mysqlType base arg1 arg2).1 := by rw [h]
      rw [key (by rw [hn]; exact mysqlType_upper _ _ _ hup)]
      refine ⟨(mysqlType n [] []).2.1, (mysqlType n [] []).2.2, ?_⟩
      have := mysqlType_idem base arg1 arg2 [] [] (by
        rintro ⟨a, c, hac⟩
        obtain ⟨x, y, hxy⟩ := hinf
        exact hm rfl ⟨x ++ a, c ++ y, by rw [hxy, hac]; simp⟩)
      rw [← hn] at this
      simp only [Option.some.injEq]
      exact Prod.ext this rfl
    | sqlserver =>
      simp only [Option.some.injEq, Prod.mk.injEq] at h
      rw [key (by rw [← h.1]; exact sqlserverType_upper _ hup)]
      exact ⟨[], [], by simp [← h.1, sqlserverType_idem]⟩
    | sqlite =>
      simp only [Option.some.injEq, Prod.mk.injEq] at h
      rw [key (by rw [← h.1, hup])]
      exact ⟨[], [], rfl⟩
    | oracle =>
      simp only [Option.some.injEq, Prod.mk.injEq] at h
      rw [key (by rw [← h.1, hup])]
      exact ⟨[], [], rfl⟩
    | other =>
      simp only [Option.some.injEq, Prod.mk.injEq] at h
      rw [key (by rw [← h.1, hup])]
      exact ⟨[], [], rfl⟩

example : normalizeColumnType .mysql b!"integer(11) unsigned" = some (b!"INT", [], []) ∧
    normalizeColumnType .mysql b!"integer unsigned" = some (b!"INT UNSIGNED", [], []) ∧
    ')' ∉ b!"INT UNSIGNED" ∧ Go.trimSpace b!"INT UNSIGNED" = b!"INT UNSIGNED" := by decide +kernel

/-- **C27, refuted** in part: the type `x)y(1)` is normalised to `X)Y`, which crashes the program
when it is normalised; on MySQL `int signed signed` is normalised to `INT SIGNED` and that to
`INT`. -/
theorem normalizeColumnType_stable_refuted :
    (¬ ∀ d s n a1 a2, normalizeColumnType d s = some (n, a1, a2) →
      normalizeColumnType d n ≠ none) ∧
    (¬ ∀ d s n a1 a2 n' b1 b2, normalizeColumnType d s = some (n, a1, a2) →
      normalizeColumnType d n = some (n', b1, b2) → n' = n) := by
  constructor
  · intro h
    exact h .sqlite b!"x)y(1)" b!"X)Y" b!"1" [] (by decide +kernel) (by decide +kernel)
  · intro h
    have := h .mysql b!"int signed signed" b!"INT SIGNED" [] [] b!"INT" [] []
      (by decide +kernel) (by decide +kernel)
    revert this
    decide

/-! ## Different types stay different -/

theorem lowerC_upperC (c : Char) : Go.lowerC (Go.upperC c) = Go.lowerC c := by
  apply char_split (fun c => Go.lowerC (Go.upperC c) = Go.lowerC c)
  · decide
  · intro c h; rw [upperC_big c (by omega)]

theorem squeeze_upper (s : Str) : squeeze (Go.toUpper s) = squeeze s := by
  have hsp : ∀ c : Char, Go.upperC c = ' ' ↔ c = ' ' := by
    intro c
    apply char_split (fun c => Go.upperC c = ' ' ↔ c = ' ')
    · decide
    · intro c h; rw [upperC_big c (by omega)]
  unfold squeeze Go.toLower Go.toUpper
  induction s with
  | nil => rfl
  | cons c s ih =>
    have := hsp c
    by_cases hc : c = ' '
    · subst hc
      have h2 : Go.upperC ' ' = ' ' := by decide
      simp [h2]
      simpa using ih
    · have h2 : ¬ Go.upperC c = ' ' := fun h => hc (this.1 h)
      simp [h2, hc, lowerC_upperC]
      simpa using ih

theorem canonical_upper (d : Dialect) (s : Str) : canonical d (Go.toUpper s) = canonical d s := by
  unfold canonical; rw [squeeze_upper]

theorem toUpper_idem (s : Str) : Go.toUpper (Go.toUpper s) = Go.toUpper s := by
  have : Go.upperC ∘ Go.upperC = Go.upperC := funext upperC_upperC
  simp [Go.toUpper, this]

theorem toUpper_take (s : Str) (n : Nat) : (Go.toUpper s).take n = Go.toUpper (s.take n) := by
  simp [Go.toUpper, List.map_take]

theorem toUpper_length (s : Str) : (Go.toUpper s).length = s.length := by simp [Go.toUpper]

theorem hasSuffix_brackets_upper (s : Str) :
    Go.hasSuffix (Go.toUpper s) b!"[]" = Go.hasSuffix s b!"[]" := by
  have key : ∀ c d : Char, (d = '[' ∨ d = ']') → (Go.upperC c = d ↔ c = d) := by
    intro c d hd
    apply char_split (fun c => Go.upperC c = d ↔ c = d)
    · rcases hd with rfl | rfl <;> decide
    · intro c h; rw [upperC_big c (by omega)]
  rw [Bool.eq_iff_iff, hasSuffix_iff', hasSuffix_iff']
  constructor
  · rintro ⟨a, h⟩
    refine ⟨s.take (s.length - 2), ?_⟩
    have hl : s.length = a.length + 2 := by rw [← toUpper_length, h]; simp
    have h1 : s = s.take a.length ++ s.drop a.length := (List.take_append_drop _ _).symm
    have h2 := congrArg (List.drop a.length) h
    simp only [List.drop_left] at h2
    rw [show s.length - 2 = a.length by omega]
    rw [show Go.toUpper s = s.map Go.upperC from rfl, ← List.map_drop] at h2
    generalize s.drop a.length = r at h1 h2
    obtain ⟨x, y, rfl⟩ : ∃ x y, r = [x, y] := by
      match r, congrArg List.length h2 with
      | [x, y], _ => exact ⟨x, y, rfl⟩
      | [], h => simp at h
      | [_], h => simp at h
      | _ :: _ :: _ :: _, h => simp at h
    simp only [List.map_cons, List.map_nil, List.cons.injEq, and_true] at h2
    rw [key _ _ (Or.inl rfl), key _ _ (Or.inr rfl)] at h2
    rw [h2.1, h2.2] at h1
    exact h1
  · rintro ⟨a, rfl⟩
    exact ⟨Go.toUpper a, by simp [Go.toUpper]; decide⟩

theorem typeMeaning_upper (d : Dialect) (s : Str) : typeMeaning d (Go.toUpper s) = typeMeaning d s := by
  unfold typeMeaning
  cases d with
  | postgres => simp only [hasSuffix_brackets_upper, toUpper_take, canonical_upper, toUpper_length]
  | mysql => simp only [toUpper_idem, toUpper_take, canonical_upper, toUpper_length]
  | _ => simp only [canonical_upper]

theorem squeeze_removeSpaces (s : Str) : squeeze s = Go.toLower (Go.removeSpaces s) := rfl

theorem canonical_congr (d : Dialect) (s t : Str) (h : Go.removeSpaces s = Go.removeSpaces t) :
    canonical d s = canonical d t := by
  unfold canonical; rw [squeeze_removeSpaces s, squeeze_removeSpaces t, h]

theorem canonical_pg (b : Str) : canonical .postgres (pgTypeName b []) = canonical .postgres b := by
  have ht : ∀ x ∈ pgTypeTable, canonical .postgres x.2 = canonical .postgres x.1 ∧
      Go.removeSpaces x.1 = x.1 := by decide +kernel
  unfold pgTypeName
  have : ¬ Go.removeSpaces [] = b!"WITHTIMEZONE" := by decide
  simp only [this, and_false, if_false]
  split
  · rename_i c hc
    have := ht _ (lookup_mem hc)
    rw [this.1]
    exact canonical_congr _ _ _ this.2
  · rfl

theorem canonical_sqlserver (b : Str) :
    canonical .sqlserver (sqlserverType b) = canonical .sqlserver b := by
  have ht : ∀ x ∈ sqlserverTypeTable, canonical .sqlserver x.2 = canonical .sqlserver x.1 ∧
      Go.removeSpaces x.1 = x.1 := by decide +kernel
  unfold sqlserverType
  split
  · rename_i c hc
    have := ht _ (lookup_mem hc)
    rw [this.1]
    exact canonical_congr _ _ _ this.2
  · rfl

theorem canonical_mysql (b p q : Str) :
    canonical .mysql (mysqlTypeName b p q).1 = canonical .mysql b := by
  have key : ∀ x y : Str, Go.removeSpaces b = x → Go.removeSpaces x = x →
      canonical .mysql y = canonical .mysql x → canonical .mysql y = canonical .mysql b := by
    intro x y h1 h2 h3
    rw [h3]
    exact canonical_congr _ _ _ (by rw [h1, h2])
  unfold mysqlTypeName
  simp only
  split
  · exact key _ _ ‹_› (by decide) (by decide +kernel)
  split
  · rename_i h; simp at h
    rcases h with h | h
    · exact key _ _ h (by decide) (show canonical .mysql b!"NUMERIC" = _ by decide +kernel)
    · exact key _ _ h (by decide) (show canonical .mysql b!"NUMERIC" = _ by decide +kernel)
  split
  · rename_i h; simp at h
    rcases h with h | h
    · exact key _ _ h (by decide) (by decide +kernel)
    · exact key _ _ h (by decide) (by decide +kernel)
  split
  · rfl
  split <;> rfl

theorem meaning_pg (b : Str) : typeMeaning .postgres (pgType b []) = typeMeaning .postgres b := by
  unfold pgType typeMeaning
  by_cases hb : Go.hasSuffix b b!"[]" = true
  · simp only [if_pos hb]
    generalize hn : pgTypeName (b.take (b.length - 2)) [] = n
    have h1 : Go.hasSuffix (n ++ b!"[]") b!"[]" = true := (hasSuffix_iff' _ _).2 ⟨n, rfl⟩
    rw [if_pos h1]
    simp [← hn, canonical_pg]
  · simp only [if_neg hb]
    have h1 : ¬ Go.hasSuffix (pgTypeName b []) b!"[]" = true := by
      rcases pgTypeName_cases b [] with h | h
      · rwa [h.1]
      · revert h
        generalize pgTypeName b [] = n
        revert n
        decide
    rw [if_neg h1, canonical_pg]

theorem meaning_mysql (b p q : Str) (hup : Go.toUpper b = b)
    (hs : ¬ ∃ a c, b = a ++ b!"SIGNED SIGNED" ++ c) :
    typeMeaning .mysql (mysqlType b p q).1 = typeMeaning .mysql b := by
  have hup' := mysqlType_upper b p q hup
  unfold typeMeaning
  simp only
  rw [hup, hup']
  by_cases hu : Go.hasSuffix b b!" UNSIGNED" = true
  · obtain ⟨a, rfl⟩ := (hasSuffix_iff' _ _).1 hu
    have h1 : ∀ x p q, (mysqlType (x ++ b!" UNSIGNED") p q).1 =
        (mysqlTypeName x p q).1 ++ b!" UNSIGNED" := by
      intro x p q
      unfold mysqlType
      rw [if_pos ((hasSuffix_iff' _ _).2 ⟨x, rfl⟩), trimSuffix_append]
    rw [h1, if_pos ((hasSuffix_iff' _ _).2 ⟨_, rfl⟩), if_pos hu]
    simp [canonical_mysql]
  · simp only [Bool.not_eq_true] at hu
    have h1 := mysqlType_sign b p q hs hu
    rw [h1.1, h1.2, hu]
    simp only [Bool.false_eq_true, if_false]
    unfold mysqlType
    rw [hu]
    simp only [Bool.false_eq_true, if_false]
    rw [canonical_mysql]
    by_cases h2 : Go.hasSuffix b b!" SIGNED" = true
    · rw [if_pos h2, Go.trimSuffix, if_pos h2]
      rfl
    · rw [if_neg h2, Go.trimSuffix, if_neg h2]

/-- the meaning of the normalised base type -/
theorem meaning_base (d : Dialect) (s base n a1 a2 p q : Str)
    (hta : typeArgs (Go.toUpper (Go.trimSpace s)) = some (Go.toUpper base, p, q, []))
    (h : normalizeColumnType d s = some (n, a1, a2))
    (hm : d = .mysql → ¬ ∃ a b, Go.toUpper s = a ++ b!"SIGNED SIGNED" ++ b) :
    typeMeaning d n = typeMeaning d base := by
  unfold normalizeColumnType at h
  rw [hta] at h
  rw [← typeMeaning_upper d base]
  have hinf : ∃ x y, Go.toUpper s = x ++ Go.toUpper base ++ y := by
    obtain ⟨x, y, hxy⟩ := typeArgs_infix hta
    rw [toUpper_trimSpace] at hxy
    obtain ⟨a, b, hab⟩ := trimSpace_infix (Go.toUpper s)
    refine ⟨a ++ x, y ++ b, ?_⟩
    rw [hxy] at hab
    rw [hab]; simp
  cases d with
  | postgres => simp at h; rw [← h.1]; exact meaning_pg _
  | mysql =>
    simp at h
    have hn : n = (mysqlType (Go.toUpper base) p q).1 := by rw [h]
    rw [hn]
    apply meaning_mysql _ _ _ (toUpper_idem _)
    rintro ⟨a, c, hac⟩
    obtain ⟨x, y, hxy⟩ := hinf
    exact hm rfl ⟨x ++ a, c ++ y, by rw [hxy, hac]; simp⟩
  | sqlserver => simp at h; rw [← h.1]; simp [typeMeaning, canonical_sqlserver]
  | sqlite => simp at h; rw [← h.1]
  | oracle => simp at h; rw [← h.1]
  | other => simp at h; rw [← h.1]

/-- **C60, partial**: normalisation keeps what a type name denotes; hence types that compare as
equal have the same name up to case, blanks and aliases.  Missing: text behind the arguments, see
`normalizeColumnType_meaning_refuted`. -/
theorem normalizeColumnType_meaning_partial (d : Dialect) (s name n a1 a2 : Str)
    (ht : TypeText s name) (hne : name.head?.any (fun c => !Go.isSpace c))
    (h : normalizeColumnType d s = some (n, a1, a2))
    (hm : d = .mysql → ¬ ∃ a b, Go.toUpper s = a ++ b!"SIGNED SIGNED" ++ b) :
    typeMeaning d n = typeMeaning d (Go.trimSpace name) := by
  cases ht with
  | plain _ hb =>
    refine meaning_base d s (Go.trimSpace s) n a1 a2 [] [] ?_ h hm
    apply typeArgs_plain
    rw [mem_toUpper _ (by decide), mem_trimSpace _ (by decide)]
    exact hb
  | args _ x hb =>
    refine meaning_base d _ (Go.trimSpace name) n a1 a2 (argPair (Go.toUpper x)).1
      (argPair (Go.toUpper x)).2 ?_ h hm
    cases name with
    | nil => simp at hne
    | cons w ws =>
      have hw : Go.isSpace w = false := by simpa using hne
      rw [show w :: ws ++ '(' :: (x ++ [')']) = w :: (ws ++ '(' :: x) ++ [')'] by simp,
        trimSpace_eq_self _ _ _ hw (by decide)]
      rw [show Go.toUpper (w :: (ws ++ '(' :: x) ++ [')']) =
        Go.toUpper (w :: ws) ++ '(' :: (Go.toUpper x ++ [')']) by simp [Go.toUpper]; decide]
      rw [toUpper_trimSpace]
      apply typeArgs_brackets
      rw [mem_toUpper _ (by decide)]
      exact hb

example : TypeText b!"character varying(10)" b!"character varying" ∧
    normalizeColumnType .postgres b!"character varying(10)" = some (b!"VARCHAR", b!"10", []) ∧
    typeMeaning .postgres b!"VARCHAR" = typeMeaning .postgres b!"character varying" :=
  ⟨.args b!"character varying" b!"10" (by decide), by decide +kernel, by decide +kernel⟩

/-- **C60**: types with the same normal form have names that denote the same type. -/
theorem normalizeColumnType_distinguishes_partial (d : Dialect) (s t name name' n a1 a2 : Str)
    (hs : TypeText s name) (ht : TypeText t name')
    (h1 : name.head?.any (fun c => !Go.isSpace c)) (h2 : name'.head?.any (fun c => !Go.isSpace c))
    (hm : d = .mysql → ¬ (∃ a b, Go.toUpper s = a ++ b!"SIGNED SIGNED" ++ b) ∧
      ¬ (∃ a b, Go.toUpper t = a ++ b!"SIGNED SIGNED" ++ b))
    (h : normalizeColumnType d s = some (n, a1, a2))
    (h' : normalizeColumnType d t = some (n, a1, a2)) :
    typeMeaning d (Go.trimSpace name) = typeMeaning d (Go.trimSpace name') := by
  rw [← normalizeColumnType_meaning_partial d s name n a1 a2 hs h1 h fun e => (hm e).1,
    ← normalizeColumnType_meaning_partial d t name' n a1 a2 ht h2 h' fun e => (hm e).2]

example : TypeText b!"int4" b!"int4" ∧ TypeText b!"Integer" b!"Integer" ∧
    normalizeColumnType .postgres b!"int4" = normalizeColumnType .postgres b!"Integer" ∧
    normalizeColumnType .postgres b!"int4" ≠ normalizeColumnType .postgres b!"int8" :=
  ⟨.plain _ (by decide), .plain _ (by decide), by decide +kernel, by decide +kernel⟩

/-- **C60, refuted**: what follows the brackets is ignored.  On Postgres `varchar(10)[]` (an array)
and `varchar(10)` compare as equal, on MySQL `decimal(10,2) unsigned` and `decimal(10,2)`; so a
change from one to the other is not noticed. -/
theorem normalizeColumnType_meaning_refuted :
    normalizeColumnType .postgres b!"varchar(10)[]" = normalizeColumnType .postgres b!"varchar(10)" ∧
    normalizeColumnType .mysql b!"decimal(10,2) unsigned" =
      normalizeColumnType .mysql b!"decimal(10,2)" := by decide +kernel

/-! ## Column defaults -/

theorem cutColons_none (s : Str) : Go.cutColons s = none ↔ ¬ ∃ a b, s = a ++ b!"::" ++ b := by
  fun_induction Go.cutColons s with
  | case1 => simp
  | case2 c =>
    simp
    intro a b h
    have := congrArg List.length h
    simp at this; omega
  | case3 c d r h => 
    simp
    exact ⟨[], r, by simp [h]⟩
  | case4 c d r h ih =>
    simp only [Option.map_eq_none_iff, ih]
    apply not_congr
    constructor
    · rintro ⟨a, b, h1⟩; exact ⟨c :: a, b, by simp [h1]⟩
    · rintro ⟨a, b, h1⟩
      cases a with
      | nil => simp at h1; exact absurd ⟨h1.1, h1.2.1⟩ h
      | cons x a => simp at h1; exact ⟨a, b, by simpa using h1.2⟩

theorem trimSpace_idem (s : Str) : Go.trimSpace (Go.trimSpace s) = Go.trimSpace s := by
  have hd : ∀ s : Str, (s.dropWhile Go.isSpace).dropWhile Go.isSpace = s.dropWhile Go.isSpace := by
    intro s; induction s with
    | nil => rfl
    | cons c s ih =>
      rw [List.dropWhile_cons]
      split
      · exact ih
      · rename_i h; rw [List.dropWhile_cons, if_neg h]
  have key : ∀ r : Str, r.dropWhile Go.isSpace = r →
      ((r.reverse.dropWhile Go.isSpace).reverse).dropWhile Go.isSpace =
        (r.reverse.dropWhile Go.isSpace).reverse := by
    intro r hr
    obtain ⟨p, hp⟩ : ∃ p, r = (r.reverse.dropWhile Go.isSpace).reverse ++ p := by
      refine ⟨(r.reverse.takeWhile Go.isSpace).reverse, ?_⟩
      rw [← List.reverse_append, List.takeWhile_append_dropWhile, List.reverse_reverse]
    generalize (r.reverse.dropWhile Go.isSpace).reverse = x at hp
    cases x with
    | nil => rfl
    | cons c x =>
      rw [hp] at hr
      rw [List.cons_append, List.dropWhile_cons] at hr
      split at hr
      · have := congrArg List.length hr
        have h2 := (List.dropWhile_sublist Go.isSpace (l := x ++ p)).length_le
        simp at this h2
        omega
      · rename_i h
        rw [List.dropWhile_cons, if_neg h]
  unfold Go.trimSpace
  rw [key _ (hd s), List.reverse_reverse, hd]

theorem trimSpace_nil_upper (s : Str) : Go.toUpper s = [] ↔ s = [] := by simp [Go.toUpper]

/-- **C28, partial**: normalising a normalised default changes nothing, except on Postgres if the
default contains a cast (`::`), see `normalizeColumnDefault_stable_refuted`. -/
theorem normalizeColumnDefault_stable_partial (d : Dialect) (s : Str)
    (h : d = .postgres → ¬ ∃ a b, s = a ++ b!"::" ++ b) :
    normalizeColumnDefault d (normalizeColumnDefault d s) = normalizeColumnDefault d s := by
  have h1 : ∀ d : Dialect, normalizeColumnDefault d [] = [] := by intro d; cases d <;> rfl
  have h2 : ∀ d : Dialect, ∀ x ∈ [b!"'1'", b!"'0'", b!"CURRENT_DATE", b!"CURRENT_TIME",
      b!"CURRENT_TIMESTAMP", b!"NULL"], normalizeColumnDefault d x = x := by
    intro d; cases d <;> decide +kernel
  have h3 : normalizeColumnDefault d s = [] ∨
      normalizeColumnDefault d s ∈ [b!"'1'", b!"'0'", b!"CURRENT_DATE", b!"CURRENT_TIME",
        b!"CURRENT_TIMESTAMP", b!"NULL"] ∨ normalizeColumnDefault d s = Go.trimSpace s := by
    unfold normalizeColumnDefault
    simp only
    split
    · left; rfl
    split
    · right; left; decide
    split
    · right; left; decide
    split
    · rename_i h; right; left
      simp at h ⊢
      grind
    cases d with
    | sqlite => simp only; split; · right; left; decide
                · right; right; rfl
    | postgres =>
      simp only; split; · right; left; decide
      · right; right
        have : Go.cutColons (Go.trimSpace s) = none := by
          rw [cutColons_none]
          rintro ⟨a, b, hab⟩
          obtain ⟨x, y, hxy⟩ := trimSpace_infix s
          exact h rfl ⟨x ++ a, b ++ y, by rw [hxy, hab]; simp⟩
        rw [this]
    | mysql => simp only; split; · right; left; decide
               · right; right; rfl
    | sqlserver => simp only; split; · right; left; decide
                   · right; right; rfl
    | oracle => right; right; rfl
    | other => right; right; rfl
  rcases h3 with h3 | h3 | h3
  · rw [h3, h1]
  · exact h2 d _ h3
  · rw [h3]
    conv => rhs; rw [← h3]
    unfold normalizeColumnDefault
    rw [trimSpace_idem]

example : normalizeColumnDefault .mysql b!" now() " = b!"CURRENT_TIMESTAMP" ∧
    normalizeColumnDefault .postgres b!"nextval('x')" = b!"nextval('x')" := by decide +kernel

/-- **C28, refuted** for Postgres: `true::boolean` is normalised to `true`, and that to `'1'`. -/
theorem normalizeColumnDefault_stable_refuted : ¬ ∀ d s,
    normalizeColumnDefault d (normalizeColumnDefault d s) = normalizeColumnDefault d s := by
  intro h
  have := h .postgres b!"true::boolean"
  revert this
  decide +kernel

/-- **C63, refuted**: different defaults compare as equal on Postgres: everything behind the first
`::` is ignored, also inside of a string literal. -/
theorem normalizeColumnDefault_distinguishes_refuted :
    normalizeColumnDefault .postgres b!"'a::b'" = normalizeColumnDefault .postgres b!"'a::c'" := by
  decide +kernel

theorem default_classify (d : Dialect) (s : Str)
    (h : d = .postgres → ¬ ∃ a b, s = a ++ b!"::" ++ b) :
    let u := Go.toUpper (Go.trimSpace s)
    let r := normalizeColumnDefault d s
    (u ∈ [b!"1", b!"TRUE"] ∧ r = b!"'1'") ∨ (u ∈ [b!"0", b!"FALSE"] ∧ r = b!"'0'") ∨
    (u ∈ [b!"CURRENT_DATE", b!"CURRENT_TIME", b!"NULL"] ∧ r = u) ∨
    (u ∈ nowNames d ∧ r = b!"CURRENT_TIMESTAMP") ∨ r = Go.trimSpace s := by
  intro u r
  show _ ∨ _
  unfold u r normalizeColumnDefault
  simp only
  split
  · rename_i h0; right; right; right; right; exact h0.symm
  split
  · left; exact ⟨‹_›, rfl⟩
  split
  · right; left; exact ⟨‹_›, rfl⟩
  split
  · rename_i h1
    right; right
    simp only [List.mem_cons, List.not_mem_nil, or_false] at h1
    rcases h1 with h1 | h1 | h1 | h1
    · left; exact ⟨by rw [h1]; decide, rfl⟩
    · left; exact ⟨by rw [h1]; decide, rfl⟩
    · right; left; exact ⟨by rw [h1]; cases d <;> decide, h1⟩
    · left; exact ⟨by rw [h1]; decide, rfl⟩
  cases d with
  | sqlite =>
    simp only; split
    · rename_i h1; right; right; right; left; exact ⟨by simp [nowNames] at h1 ⊢; exact Or.inr h1, rfl⟩
    · right; right; right; right; rfl
  | postgres =>
    simp only; split
    · rename_i h1; right; right; right; left; exact ⟨by rw [h1]; decide, rfl⟩
    · right; right; right; right
      have : Go.cutColons (Go.trimSpace s) = none := by
        rw [cutColons_none]
        rintro ⟨a, b, hab⟩
        obtain ⟨x, y, hxy⟩ := trimSpace_infix s
        exact h rfl ⟨x ++ a, b ++ y, by rw [hxy, hab]; simp⟩
      rw [this]
  | mysql =>
    simp only; split
    · rename_i h1; right; right; right; left; exact ⟨by rw [h1]; decide, rfl⟩
    · right; right; right; right; rfl
  | sqlserver =>
    simp only; split
    · rename_i h1; right; right; right; left; exact ⟨by rw [h1]; decide, rfl⟩
    · right; right; right; right; rfl
  | oracle => right; right; right; right; rfl
  | other => right; right; right; right; rfl

/-- **C63, partial**: defaults that compare as equal are equal up to surrounding blanks or spellings
of the same constant.  Missing: Postgres defaults with `::`. -/
theorem normalizeColumnDefault_distinguishes_partial (d : Dialect) (s t : Str)
    (hs : d = .postgres → ¬ ∃ a b, s = a ++ b!"::" ++ b)
    (ht : d = .postgres → ¬ ∃ a b, t = a ++ b!"::" ++ b)
    (h : normalizeColumnDefault d s = normalizeColumnDefault d t) :
    SameDefault d (Go.trimSpace s) (Go.trimSpace t) := by
  have h1 := default_classify d s hs
  have h2 := default_classify d t ht
  simp only at h1 h2
  rw [← h] at h2
  generalize normalizeColumnDefault d s = r at h1 h2
  have hn : b!"CURRENT_TIMESTAMP" ∈ nowNames d := by cases d <;> decide
  have hc : ∀ x ∈ [b!"CURRENT_DATE", b!"CURRENT_TIME", b!"NULL"], x ≠ b!"'1'" ∧ x ≠ b!"'0'" ∧
    x ≠ b!"CURRENT_TIMESTAMP" := by decide
  have hne1 : b!"'1'" ≠ b!"'0'" := by decide
  have hne2 : b!"'1'" ≠ b!"CURRENT_TIMESTAMP" := by decide
  have hne3 : b!"'0'" ≠ b!"CURRENT_TIMESTAMP" := by decide
  have hu1 : Go.toUpper b!"'1'" = b!"'1'" := by decide
  have hu2 : Go.toUpper b!"'0'" = b!"'0'" := by decide
  have hu3 : Go.toUpper b!"CURRENT_TIMESTAMP" = b!"CURRENT_TIMESTAMP" := by decide
  generalize Go.trimSpace s = x at *
  generalize Go.trimSpace t = y at *
  have hx := toUpper_idem x
  have hy := toUpper_idem y
  have m1 : ∀ u ∈ [b!"1", b!"TRUE"], u ∈ [b!"1", b!"TRUE", b!"'1'"] := by decide
  have m2 : b!"'1'" ∈ [b!"1", b!"TRUE", b!"'1'"] := by decide
  have m3 : ∀ u ∈ [b!"0", b!"FALSE"], u ∈ [b!"0", b!"FALSE", b!"'0'"] := by decide
  have m4 : b!"'0'" ∈ [b!"0", b!"FALSE", b!"'0'"] := by decide
  unfold SameDefault
  generalize [b!"1", b!"TRUE", b!"'1'"] = L1 at *
  generalize [b!"0", b!"FALSE", b!"'0'"] = L0 at *
  generalize [b!"1", b!"TRUE"] = K1 at *
  generalize [b!"0", b!"FALSE"] = K0 at *
  generalize [b!"CURRENT_DATE", b!"CURRENT_TIME", b!"NULL"] = K at *
  generalize b!"CURRENT_TIMESTAMP" = now at *
  generalize b!"'1'" = one at *
  generalize b!"'0'" = zero at *
  generalize nowNames d = N at *
  grind

example : normalizeColumnDefault .postgres b!"true" = normalizeColumnDefault .postgres b!"'1'" ∧
    SameDefault .postgres b!"true" b!"'1'" := by
  refine ⟨by decide +kernel, Or.inr (Or.inl ⟨by decide, by decide⟩)⟩

end Sqddl
