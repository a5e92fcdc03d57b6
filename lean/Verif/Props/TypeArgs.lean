import Verif.Props.Types
import Verif.Spec.TypeParts
import Verif.Model.Diff

/-!
# The arguments of column types (C60)
-/

namespace Sqddl
open DdlSpec

theorem takeWhile_upper (x : Str) :
    (Go.toUpper x).takeWhile (· ≠ ',') = Go.toUpper (x.takeWhile (· ≠ ',')) ∧
    (Go.toUpper x).dropWhile (· ≠ ',') = Go.toUpper (x.dropWhile (· ≠ ',')) := by
  have hc : ∀ c : Char, Go.upperC c = ',' ↔ c = ',' := by
    intro c
    apply char_split (fun c => Go.upperC c = ',' ↔ c = ',')
    · decide
    · intro c h; rw [upperC_big c (by omega)]
  induction x with
  | nil => exact ⟨rfl, rfl⟩
  | cons c x ih =>
    have := hc c
    show ((Go.upperC c :: Go.toUpper x).takeWhile _ = _) ∧
      ((Go.upperC c :: Go.toUpper x).dropWhile _ = _)
    by_cases e : c = ','
    · subst e
      have e' : Go.upperC ',' = ',' := by decide
      rw [e']
      exact ⟨rfl, by simp [Go.toUpper, e']⟩
    · have e' : ¬ Go.upperC c = ',' := fun h => e (this.1 h)
      rw [List.takeWhile_cons, List.dropWhile_cons, List.takeWhile_cons, List.dropWhile_cons]
      simp only [e, e', ne_eq, not_false_eq_true, decide_true, if_true]
      exact ⟨by rw [ih.1]; rfl, ih.2⟩

theorem argTexts_upper (x : Str) : argTexts (Go.toUpper x) = argTexts x := by
  unfold argTexts
  rw [(takeWhile_upper x).1, (takeWhile_upper x).2, ← toUpper_trimSpace, toUpper_idem]
  have : ∀ s : Str, (Go.toUpper s).drop 1 = Go.toUpper (s.drop 1) := fun s => by
    simp [Go.toUpper]
  rw [this, ← toUpper_trimSpace, toUpper_idem]

theorem takeWhile_space (s : Str) : ∀ c ∈ s.takeWhile Go.isSpace, Go.isSpace c = true := by
  induction s with
  | nil => simp
  | cons c s ih =>
    rw [List.takeWhile_cons]
    intro d hd
    split at hd
    · rename_i hc
      rcases List.mem_cons.1 hd with rfl | hd
      · exact hc
      · exact ih _ hd
    · simp at hd

/-- A text without the surrounding blanks. -/
theorem trimSpace_split (s : Str) : ∃ a b, s = a ++ Go.trimSpace s ++ b ∧
    (∀ c ∈ a, Go.isSpace c = true) ∧ ∀ c ∈ b, Go.isSpace c = true := by
  have hs := takeWhile_space
  refine ⟨s.takeWhile Go.isSpace, ((s.dropWhile Go.isSpace).reverse.takeWhile Go.isSpace).reverse,
    ?_, hs s, ?_⟩
  · unfold Go.trimSpace
    rw [List.append_assoc, ← List.reverse_append, List.takeWhile_append_dropWhile, List.reverse_reverse,
      List.takeWhile_append_dropWhile]
  · intro c hc
    exact hs _ c (List.mem_reverse.1 hc)

theorem split_comma (t : Str) (h : ',' ∈ t) : ∃ u v, t = u ++ ',' :: v ∧ ',' ∉ u := by
  induction t with
  | nil => simp at h
  | cons c t ih =>
    by_cases e : c = ','
    · exact ⟨[], t, by rw [e]; rfl, by simp⟩
    · obtain ⟨u, v, rfl, hu⟩ := ih (by
        rcases List.mem_cons.1 h with h | h
        · exact absurd h.symm e
        · exact h)
      exact ⟨c :: u, v, rfl, by
        intro hm
        rcases List.mem_cons.1 hm with hm | hm
        · exact e hm.symm
        · exact hu hm⟩

theorem comma_parts {u v : Str} (h : ',' ∉ u) :
    (u ++ ',' :: v).takeWhile (· ≠ ',') = u ∧ (u ++ ',' :: v).dropWhile (· ≠ ',') = ',' :: v ∧
    Go.indexByte (u ++ ',' :: v) ',' = some u.length := by
  induction u with
  | nil => exact ⟨rfl, rfl, rfl⟩
  | cons c u ih =>
    have hc : ¬ c = ',' := fun e => h (by simp [e])
    obtain ⟨h1, h2, h3⟩ := ih fun hm => h (List.mem_cons_of_mem _ hm)
    refine ⟨?_, ?_, ?_⟩
    · simpa [List.takeWhile_cons, hc] using h1
    · simpa [List.dropWhile_cons, hc] using h2
    · unfold Go.indexByte at h3 ⊢
      rw [List.cons_append, List.findIdx?_cons, h3]
      simp [hc]

theorem comma_absent {u : Str} (h : ',' ∉ u) :
    u.takeWhile (· ≠ ',') = u ∧ u.dropWhile (· ≠ ',') = [] := by
  induction u with
  | nil => exact ⟨rfl, rfl⟩
  | cons c u ih =>
    have hc : ¬ c = ',' := fun e => h (by simp [e])
    obtain ⟨h1, h2⟩ := ih fun hm => h (List.mem_cons_of_mem _ hm)
    rw [List.takeWhile_cons, List.dropWhile_cons]
    simp only [hc, ne_eq, not_false_eq_true, decide_true, if_true]
    exact ⟨congrArg (c :: ·) h1, h2⟩

theorem argPair_texts (x : Str) : Go.toUpper (argPair x).1 = (argTexts x).1 ∧
    Go.toUpper (argPair x).2 = (argTexts x).2 := by
  obtain ⟨a, b, hx, ha, hb⟩ := trimSpace_split x
  have hna : ',' ∉ a := fun h => by have := ha _ h; revert this; decide
  have hnb : ',' ∉ b := fun h => by have := hb _ h; revert this; decide
  have hfront : ∀ u, Go.trimSpace (a ++ u) = Go.trimSpace u := fun u => by
    have := trimSpace_pad a u [] ha (by simp)
    simpa using this
  have hback : ∀ u, Go.trimSpace (u ++ b) = Go.trimSpace u := fun u => by
    have := trimSpace_pad [] u b (by simp) hb
    simpa using this
  unfold argPair argTexts
  generalize ht : Go.trimSpace x = t at hx
  by_cases hc : ',' ∈ t
  · obtain ⟨u, v, rfl, hu⟩ := split_comma t hc
    have hsplit : x = (a ++ u) ++ ',' :: (v ++ b) := by rw [hx]; simp
    obtain ⟨h1, h2, _⟩ := comma_parts (u := a ++ u) (v := v ++ b) (by
      intro hm
      rcases List.mem_append.1 hm with hm | hm
      · exact hna hm
      · exact hu hm)
    rw [(comma_parts hu).2.2]
    dsimp only
    rw [hsplit, h1, h2]
    simp [hfront, hback]
  · have hnx : ',' ∉ x := by
      rw [hx]
      intro hm
      rcases List.mem_append.1 hm with hm | hm
      · rcases List.mem_append.1 hm with hm | hm
        · exact hna hm
        · exact hc hm
      · exact hnb hm
    rw [(indexByte_none t ',').2 hc, (comma_absent hnx).1, (comma_absent hnx).2]
    dsimp only
    rw [← ht, trimSpace_idem]
    exact ⟨rfl, rfl⟩

theorem toUpper_argPair (x : Str) :
    Go.toUpper (argPair (Go.toUpper x)).1 = (argPair (Go.toUpper x)).1 ∧
    Go.toUpper (argPair (Go.toUpper x)).2 = (argPair (Go.toUpper x)).2 := by
  have hu : Go.toUpper (Go.trimSpace (Go.toUpper x)) = Go.trimSpace (Go.toUpper x) := by
    rw [toUpper_trimSpace, toUpper_idem]
  have hd : ∀ (s : Str) n, (Go.toUpper s).drop n = Go.toUpper (s.drop n) := fun s n => by
    simp [Go.toUpper]
  unfold argPair
  generalize Go.trimSpace (Go.toUpper x) = y at hu
  split
  · dsimp only
    rw [toUpper_trimSpace, toUpper_trimSpace, ← toUpper_take, ← hd, hu]
    exact ⟨rfl, rfl⟩
  · dsimp only
    rw [toUpper_trimSpace, hu]
    exact ⟨rfl, rfl⟩

/-- The two arguments that are read. -/
theorem argPair_upper (x : Str) : argPair (Go.toUpper x) = argTexts x := by
  have h1 := argPair_texts (Go.toUpper x)
  have h2 := toUpper_argPair x
  rw [h2.1, h2.2, argTexts_upper] at h1
  exact Prod.ext h1.1 h1.2

theorem toUpper_squeeze (b : Str) (h : Go.toUpper b = b) :
    Go.toUpper (squeeze b) = Go.removeSpaces b := by
  have hf : Go.upperC ∘ Go.lowerC = Go.upperC := funext upperC_lowerC
  have hr : ∀ c ∈ Go.removeSpaces b, Go.upperC c = c := by
    intro c hc
    have hm : c ∈ b := (List.mem_filter.1 hc).1
    rw [← h] at hm
    obtain ⟨d, _, rfl⟩ := List.mem_map.1 hm
    exact upperC_upperC d
  rw [squeeze_removeSpaces]
  unfold Go.toUpper Go.toLower
  rw [List.map_map, hf]
  exact (List.map_congr_left hr).trans (List.map_id' _)

theorem mysqlTypeName_args (b p q : Str) (h : Go.toUpper b = b) :
    (mysqlTypeName b p q).2 =
      if squeeze b ∈ [b!"integer", b!"int", b!"smallint", b!"mediumint", b!"bigint"] then ([], [])
      else if squeeze b ∈ [b!"bool", b!"boolean"] then (b!"1", [])
      else if squeeze b = b!"tinyint" then (if p = b!"1" then b!"1" else [], [])
      else (p, q) := by
  have key : ∀ l u : Str, Go.toUpper l = u → Go.toLower u = l → Go.removeSpaces u = u →
      (Go.removeSpaces b = u ↔ squeeze b = l) := by
    intro l u h1 h2 h3
    constructor
    · intro e
      rw [squeeze_removeSpaces, e, h2]
    · intro e
      rw [← toUpper_squeeze b h, e, h1]
  have k1 := key b!"integer" b!"INTEGER" (by decide) (by decide) (by decide)
  have k2 := key b!"int" b!"INT" (by decide) (by decide) (by decide)
  have k3 := key b!"smallint" b!"SMALLINT" (by decide) (by decide) (by decide)
  have k4 := key b!"mediumint" b!"MEDIUMINT" (by decide) (by decide) (by decide)
  have k5 := key b!"bigint" b!"BIGINT" (by decide) (by decide) (by decide)
  have k6 := key b!"bool" b!"BOOL" (by decide) (by decide) (by decide)
  have k7 := key b!"boolean" b!"BOOLEAN" (by decide) (by decide) (by decide)
  have k8 := key b!"tinyint" b!"TINYINT" (by decide) (by decide) (by decide)
  have k9 := key b!"dec" b!"DEC" (by decide) (by decide) (by decide)
  have k10 := key b!"decimal" b!"DECIMAL" (by decide) (by decide) (by decide)
  unfold mysqlTypeName
  simp only [List.mem_cons, List.not_mem_nil, or_false, k1, k2, k3, k4, k5, k6, k7, k8, k9, k10]
  generalize squeeze b = l
  by_cases e1 : l = b!"integer"
  · subst e1; simp
  by_cases e2 : l = b!"dec"
  · subst e2; simp
  by_cases e3 : l = b!"decimal"
  · subst e3; simp
  by_cases e6 : l = b!"bool"
  · subst e6; simp
  by_cases e7 : l = b!"boolean"
  · subst e7; simp
  by_cases e8 : l = b!"tinyint"
  · subst e8
    by_cases hp : p = b!"1"
    · subst hp; simp
    · simp [hp]
  simp only [e1, e2, e3, e6, e7, e8, or_false, false_or, if_false]
  by_cases e9 : l = b!"smallint" ∨ l = b!"mediumint" ∨ l = b!"int" ∨ l = b!"bigint"
  · rw [if_pos e9, if_pos (by grind)]
  · rw [if_neg e9, if_neg (by grind)]

theorem hasSuffix_take {s p : Str} (h : Go.hasSuffix s p = true) :
    Go.trimSuffix s p = s.take (s.length - p.length) := by
  unfold Go.trimSuffix
  rw [if_pos h]

theorem toUpper_take_self {s : Str} (h : Go.toUpper s = s) (n : Nat) :
    Go.toUpper (s.take n) = s.take n := by
  rw [← toUpper_take, h]

theorem unsignedName_upper (s : Str) : unsignedName (Go.toUpper s) = unsignedName s := by
  unfold unsignedName
  simp only [toUpper_idem, toUpper_length, toUpper_take]
  split
  · rw [squeeze_upper]
  · split <;> rw [squeeze_upper]

/-- The arguments after normalisation on MySQL. -/
theorem mysqlType_args (b p q : Str) (h : Go.toUpper b = b) :
    (mysqlType b p q).2 =
      if unsignedName b ∈ [b!"integer", b!"int", b!"smallint", b!"mediumint", b!"bigint"] then ([], [])
      else if unsignedName b ∈ [b!"bool", b!"boolean"] then (b!"1", [])
      else if unsignedName b = b!"tinyint" then (if p = b!"1" then b!"1" else [], [])
      else (p, q) := by
  by_cases hu : Go.hasSuffix b b!" UNSIGNED" = true
  · have hn : unsignedName b = squeeze (b.take (b.length - 9)) := by
      unfold unsignedName
      rw [h, if_pos hu]
    have hm : (mysqlType b p q).2 = (mysqlTypeName (b.take (b.length - 9)) p q).2 := by
      unfold mysqlType
      rw [if_pos hu, hasSuffix_take hu]
      rfl
    rw [hn, hm]
    exact mysqlTypeName_args _ p q (toUpper_take_self h _)
  · by_cases hs : Go.hasSuffix b b!" SIGNED" = true
    · have hn : unsignedName b = squeeze (b.take (b.length - 7)) := by
        unfold unsignedName
        rw [h, if_neg hu, if_pos hs]
      have hm : (mysqlType b p q).2 = (mysqlTypeName (b.take (b.length - 7)) p q).2 := by
        unfold mysqlType
        rw [if_neg hu, hasSuffix_take hs]
        rfl
      rw [hn, hm]
      exact mysqlTypeName_args _ p q (toUpper_take_self h _)
    · have hn : unsignedName b = squeeze b := by
        unfold unsignedName
        rw [h, if_neg hu, if_neg hs]
      have hm : (mysqlType b p q).2 = (mysqlTypeName b p q).2 := by
        unfold mysqlType
        rw [if_neg hu, trimSuffix_of_not (by simpa using hs)]
      rw [hn, hm]
      exact mysqlTypeName_args _ p q h

theorem args_base (d : Dialect) (s base x n a1 a2 : Str)
    (hta : typeArgs (Go.toUpper (Go.trimSpace s)) =
      some (Go.toUpper base, (argTexts x).1, (argTexts x).2, []))
    (h : normalizeColumnType d s = some (n, a1, a2)) : (a1, a2) = argMeaning d base x := by
  unfold normalizeColumnType at h
  rw [hta] at h
  cases d with
  | mysql =>
    simp only [Option.some.injEq] at h
    have := mysqlType_args (Go.toUpper base) (argTexts x).1 (argTexts x).2 (toUpper_idem _)
    rw [h, unsignedName_upper] at this
    simpa [argMeaning] using this
  | _ =>
    simp at h
    rw [← h.2.1, ← h.2.2]
    simp [argMeaning]

theorem args_nil : argTexts [] = ([], []) := rfl

/-- **C60, partial**: normalisation keeps the arguments of a type, except for widths that mean nothing.
Missing: text behind the arguments, see `normalizeColumnType_meaning_refuted`. -/
theorem normalizeColumnType_args_partial (d : Dialect) (s name x n a1 a2 : Str)
    (ht : TypeParts s name x) (hne : name.head?.any (fun c => !Go.isSpace c))
    (h : normalizeColumnType d s = some (n, a1, a2)) :
    (a1, a2) = argMeaning d (Go.trimSpace name) x := by
  cases ht with
  | plain _ hb =>
    refine args_base d s (Go.trimSpace s) [] n a1 a2 ?_ h
    rw [args_nil]
    apply typeArgs_plain
    rw [mem_toUpper _ (by decide), mem_trimSpace _ (by decide)]
    exact hb
  | args _ _ hb =>
    refine args_base d _ (Go.trimSpace name) x n a1 a2 ?_ h
    cases name with
    | nil => simp at hne
    | cons w ws =>
      have hw : Go.isSpace w = false := by simpa using hne
      rw [show w :: ws ++ '(' :: (x ++ [')']) = w :: (ws ++ '(' :: x) ++ [')'] by simp,
        trimSpace_eq_self _ _ _ hw (by decide)]
      rw [show Go.toUpper (w :: (ws ++ '(' :: x) ++ [')']) =
        Go.toUpper (w :: ws) ++ '(' :: (Go.toUpper x ++ [')']) by simp [Go.toUpper]; decide]
      rw [toUpper_trimSpace, ← argPair_upper]
      apply typeArgs_brackets
      rw [mem_toUpper _ (by decide)]
      exact hb

example : TypeParts b!"numeric( 10 , 2)" b!"numeric" b!" 10 , 2" ∧
    normalizeColumnType .postgres b!"numeric( 10 , 2)" = some (b!"NUMERIC", b!"10", b!"2") ∧
    argMeaning .postgres b!"numeric" b!" 10 , 2" = (b!"10", b!"2") ∧
    normalizeColumnType .mysql b!"tinyint(4)" = some (b!"TINYINT", [], []) ∧
    argMeaning .mysql b!"tinyint" b!"4" = ([], []) :=
  ⟨.args b!"numeric" b!" 10 , 2" (by decide), by decide +kernel, by decide +kernel, by decide +kernel,
    by decide +kernel⟩

theorem typeText_of_parts {s n x : Str} (h : TypeParts s n x) : TypeText s n := by
  cases h with
  | plain _ h => exact .plain _ h
  | args _ _ h => exact .args _ _ h

theorem parts_some {d : Dialect} {s n x : Str} (h : TypeParts s n x) :
    ∃ r, normalizeColumnType d s = some r := by
  cases e : normalizeColumnType d s with
  | some r => exact ⟨r, rfl⟩
  | none =>
    obtain ⟨h9, h10⟩ := (normalizeColumnType_panics d s).1 e
    cases h with
    | plain _ h11 => exact absurd h10 h11
    | args _ _ h11 => simp at h9

/-- **C60, partial**: types that compare as equal mean the same, their arguments included. -/
theorem normType_same_partial {d : Dialect} {s t : Str} (h : normType d s = normType d t) :
    SameMeaning d s t := by
  intro n x m y hn hm h1 h2 h3
  obtain ⟨⟨r1, r2, r3⟩, hr⟩ := parts_some (d := d) hn
  obtain ⟨q, hq⟩ := parts_some (d := d) hm
  have e : q = (r1, r2, r3) := by
    simp only [normType, hr, hq, Option.getD_some] at h
    exact h.symm
  subst e
  refine ⟨normalizeColumnType_distinguishes_partial d _ _ n m r1 r2 r3 (typeText_of_parts hn)
    (typeText_of_parts hm) h1 h2 h3 hr hq, ?_⟩
  rw [← normalizeColumnType_args_partial d s n x r1 r2 r3 hn h1 hr,
    ← normalizeColumnType_args_partial d t m y r1 r2 r3 hm h2 hq]

example : normType .mysql b!"INTEGER(10)" = normType .mysql b!"int" ∧
    normType .mysql b!"varchar(50)" ≠ normType .mysql b!"varchar(100)" ∧
    argMeaning .mysql b!"varchar" b!"50" ≠ argMeaning .mysql b!"varchar" b!"100" := by
  decide +kernel

end Sqddl
