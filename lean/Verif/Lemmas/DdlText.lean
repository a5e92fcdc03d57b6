import Verif.Spec.DdlMeaning
import Verif.Lemmas.Piece

/-!
# Reading groups, lists and options of DDL statements
-/

namespace DdlText
open SqlSpec Go Sqddl
open WipeSpec (kws readName)

theorem deeper_add (n m : Nat) (t : Tok) (h : ¬ (t = .punct ')' ∧ m = 0)) :
    deeper (n + m) t = n + deeper m t := by
  unfold deeper
  split
  · omega
  · split
    · have : m ≠ 0 := fun e => h ⟨by assumption, e⟩
      omega
    · rfl

theorem flat_bal (n : Nat) (a : List Tok) (h : flat n a) : bal n a := by
  induction a generalizing n with
  | nil => exact h
  | cons t r ih =>
    simp only [flat, bal, Bool.and_eq_true] at h ⊢
    exact ⟨⟨h.1.1.1, h.1.2⟩, ih _ h.2⟩

theorem flat_append (n m : Nat) (a b : List Tok) (h : flat m a) :
    flat (n + m) (a ++ b) = flat n b := by
  induction a generalizing m with
  | nil => simp [flat] at h; subst h; rfl
  | cons t r ih =>
    simp only [flat, Bool.and_eq_true, Bool.not_eq_true', Bool.and_eq_false_iff] at h
    obtain ⟨⟨⟨h1, h2⟩, h3⟩, h4⟩ := h
    have h3' : ¬ (t = .punct ')' ∧ m = 0) := by simp at h3; grind
    simp only [List.cons_append, flat, deeper_add n m t h3', ih _ h4]
    simp at h1 h2 h3
    simp [h1]
    grind

theorem bal_append (n m : Nat) (a b : List Tok) (h : bal m a) :
    bal (n + m) (a ++ b) = bal n b := by
  induction a generalizing m with
  | nil => simp [bal] at h; subst h; rfl
  | cons t r ih =>
    simp only [bal, Bool.and_eq_true, Bool.not_eq_true', Bool.and_eq_false_iff] at h
    obtain ⟨⟨h1, h3⟩, h4⟩ := h
    have h3' : ¬ (t = .punct ')' ∧ m = 0) := by simp at h3; grind
    simp only [List.cons_append, bal, deeper_add n m t h3', ih _ h4]
    simp at h1 h3
    simp [h1]
    grind

/-- Inside of brackets commas are allowed. -/
theorem flat_bal_append (n m : Nat) (a b : List Tok) (h : bal m a) :
    flat (n + 1 + m) (a ++ b) = flat (n + 1) b := by
  induction a generalizing m with
  | nil => simp [bal] at h; subst h; rfl
  | cons t r ih =>
    simp only [bal, Bool.and_eq_true, Bool.not_eq_true', Bool.and_eq_false_iff] at h
    obtain ⟨⟨h1, h3⟩, h4⟩ := h
    have h3' : ¬ (t = .punct ')' ∧ m = 0) := by simp at h3; grind
    simp only [List.cons_append, flat, deeper_add (n + 1) m t h3', ih _ h4]
    simp at h1 h3
    simp [h1]

theorem closing_eq (m : Nat) (a r : List Tok) (h : bal m a) :
    closing m (a ++ .punct ')' :: r) = some (a, r) := by
  induction a generalizing m with
  | nil => simp [bal] at h; subst h; simp [closing]
  | cons t a ih =>
    simp only [bal, Bool.and_eq_true, Bool.not_eq_true', Bool.and_eq_false_iff] at h
    obtain ⟨⟨h1, h3⟩, h4⟩ := h
    have h3' : ¬ (t = .punct ')' ∧ m = 0) := by simp at h3; grind
    simp [closing, h3', ih _ h4]

theorem inBrackets_eq (a r : List Tok) (h : bal 0 a) :
    inBrackets (.punct '(' :: (a ++ .punct ')' :: r)) = some (a, r) := by
  simp [inBrackets, closing_eq 0 a r h]

theorem splitTop_append (m : Nat) (a b : List Tok) (h : flat m a) :
    splitTop m (a ++ .punct ',' :: b) = a :: splitTop 0 b := by
  induction a generalizing m with
  | nil => simp [flat] at h; subst h; simp [splitTop]
  | cons t a ih =>
    simp only [flat, Bool.and_eq_true, Bool.not_eq_true', Bool.and_eq_false_iff] at h
    obtain ⟨⟨⟨h1, h2⟩, h3⟩, h4⟩ := h
    have h2' : ¬ (t = .punct ',' ∧ m = 0) := by simp at h2; grind
    simp [splitTop, h2', ih _ h4, consHead]

theorem splitTop_one (m : Nat) (a : List Tok) (h : flat m a) : splitTop m a = [a] := by
  induction a generalizing m with
  | nil => simp [splitTop]
  | cons t a ih =>
    simp only [flat, Bool.and_eq_true, Bool.not_eq_true', Bool.and_eq_false_iff] at h
    obtain ⟨⟨⟨h1, h2⟩, h3⟩, h4⟩ := h
    have h2' : ¬ (t = .punct ',' ∧ m = 0) := by simp at h2; grind
    simp [splitTop, h2', ih _ h4, consHead]

/-- Lists of tokens with commas between them. -/
def commaSep : List (List Tok) → List Tok
  | [] => []
  | [x] => x
  | x :: y :: r => x ++ .punct ',' :: commaSep (y :: r)

theorem splitTop_commaSep (xs : List (List Tok)) (h0 : xs ≠ []) (h : ∀ x ∈ xs, flat 0 x) :
    splitTop 0 (commaSep xs) = xs := by
  induction xs with
  | nil => exact absurd rfl h0
  | cons x r ih =>
    cases r with
    | nil => exact splitTop_one 0 x (h x (by simp))
    | cons y r =>
      rw [commaSep, splitTop_append 0 x _ (h x (by simp)), ih (by simp) fun z hz => h z (by simp [hz])]

theorem bal_commaSep (xs : List (List Tok)) (h : ∀ x ∈ xs, flat 0 x) : bal 0 (commaSep xs) := by
  induction xs with
  | nil => rfl
  | cons x r ih =>
    have hx := flat_bal 0 x (h x (by simp))
    cases r with
    | nil => exact hx
    | cons y r =>
      rw [commaSep, show (0 : Nat) = 0 + 0 from rfl, bal_append 0 0 x _ hx]
      simp [bal, deeper]
      exact ih fun z hz => h z (by simp [hz])

theorem flat_brackets (a r : List Tok) (h : bal 0 a) :
    flat 0 (.punct '(' :: (a ++ .punct ')' :: r)) = flat 0 r := by
  have := flat_bal_append 0 0 a (.punct ')' :: r) h
  simp [flat, deeper] at this ⊢
  rw [this]

theorem flat_append0 (a b : List Tok) (ha : flat 0 a) (hb : flat 0 b) : flat 0 (a ++ b) := by
  have := flat_append 0 0 a b ha
  simp at this
  rw [this]; exact hb

theorem bal_append0 (a b : List Tok) (ha : bal 0 a) (hb : bal 0 b) : bal 0 (a ++ b) := by
  have := bal_append 0 0 a b ha
  simp at this
  rw [this]; exact hb

theorem flat_no_semi (n : Nat) (a : List Tok) (h : bal n a) : Tok.punct ';' ∉ a := by
  induction a generalizing n with
  | nil => simp
  | cons t r ih =>
    simp only [bal, Bool.and_eq_true] at h
    simp at h ⊢
    exact ⟨fun e => h.1.1 e.symm, ih _ h.2⟩

theorem untilWord_eq (ks : List Str) (m : Nat) (a b : List Tok) (h : flat m a) (hq : quiet ks m a)
    (hb : b = [] ∨ ∃ t r, b = t :: r ∧ ks.any (fun k => isKw k t)) :
    untilWord ks m (a ++ b) = (a, b) := by
  induction a generalizing m with
  | nil =>
    simp [flat] at h; subst h
    rcases hb with rfl | ⟨t, r, rfl, ht⟩
    · simp [untilWord]
    · simp only [List.nil_append, untilWord]
      simp only [ht, and_self, if_true]
  | cons t a ih =>
    simp only [flat, Bool.and_eq_true] at h
    simp only [quiet, Bool.and_eq_true, Bool.not_eq_true', Bool.and_eq_false_iff] at hq
    have : ¬ (m = 0 ∧ (ks.any fun k => isKw k t) = true) := by
      simp only [decide_eq_false_iff_not] at hq
      rcases hq.1 with h1 | h1
      · exact fun e => h1 e.1
      · exact fun e => by simp [h1] at e
    simp only [List.cons_append, untilWord, this, if_false, ih _ h.2 hq.2]

theorem quiet_append (ks : List Str) (n m : Nat) (a b : List Tok) (h : flat m a)
    (hq : quiet ks m a) (hb : quiet ks n b) : quiet ks (n + m) (a ++ b) := by
  induction a generalizing m with
  | nil => simp [flat] at h; subst h; simpa using hb
  | cons t r ih =>
    simp only [flat, Bool.and_eq_true, Bool.not_eq_true', Bool.and_eq_false_iff] at h
    obtain ⟨⟨⟨h1, h2⟩, h3⟩, h4⟩ := h
    have h3' : ¬ (t = .punct ')' ∧ m = 0) := by simp at h3; grind
    simp only [quiet, Bool.and_eq_true, List.cons_append, deeper_add n m t h3'] at hq ⊢
    refine ⟨?_, ih _ h4 hq.2⟩
    have := hq.1
    simp at this ⊢
    rcases this with h | h
    · exact Or.inl (Or.inr h)
    · exact Or.inr h

/-! ## Names -/

theorem flat_ident (d : Dialect) (s : Str) : flat 0 [identTok d s] := by
  have h1 := identTok_not_punct d s
  have : deeper 0 (identTok d s) = 0 := by simp [deeper, h1]
  simp [flat, h1, this]

theorem readOne_ident (d : Dialect) (s : Str) (h : PlainName d s) :
    readOne d (keywords d) [identTok d s] = some s := nameOf_identTok d s h

theorem mapM_map_some {α β γ : Type} (f : β → Option γ) (g : α → β) (k : α → γ) (xs : List α)
    (h : ∀ x ∈ xs, f (g x) = some (k x)) : (xs.map g).mapM f = some (xs.map k) := by
  induction xs with
  | nil => rfl
  | cons x r ih =>
    simp only [List.map_cons, List.mapM_cons, h x (by simp), ih fun y hy => h y (by simp [hy])]
    rfl

/-- The tokens of `a, b, …`. -/
def colToks (d : Dialect) (cols : List Str) : List Tok := commaSep (cols.map fun c => [identTok d c])

theorem bal_colToks (d : Dialect) (cols : List Str) : bal 0 (colToks d cols) := by
  apply bal_commaSep
  intro x hx
  simp at hx
  obtain ⟨c, _, rfl⟩ := hx
  exact flat_ident d c

theorem readCols_eq (d : Dialect) (cols : List Str) (h0 : cols ≠ []) (h : ∀ c ∈ cols, PlainName d c)
    (r : List Tok) :
    readCols d (keywords d) (.punct '(' :: (colToks d cols ++ .punct ')' :: r)) = some (cols, r) := by
  unfold readCols
  rw [inBrackets_eq _ r (bal_colToks d cols)]
  unfold colToks
  simp only [Option.bind_some]
  rw [splitTop_commaSep _ (by simpa using h0)]
  · rw [mapM_map_some (k := id) (readOne d (keywords d)) _ cols fun c hc => readOne_ident d c (h c hc)]
    simp
  · intro x hx
    simp at hx
    obtain ⟨c, _, rfl⟩ := hx
    exact flat_ident d c

/-- A list written with a separator is read as a list with commas. -/
theorem readsP_join (d : Dialect) (xs : List (Str × List Tok)) (h : ∀ p ∈ xs, ReadsP d p.1 p.2) :
    ReadsP d (join b!", " (xs.map (·.1))) (commaSep (xs.map (·.2))) := by
  induction xs with
  | nil => exact (Reads.nil d).readsP
  | cons p r ih =>
    cases r with
    | nil => exact h p (by simp)
    | cons q r =>
      have := (h p (by simp)).piece (Piece.lit_then d b!", " [.punct ','] _ _ (by decide)
        (ih fun y hy => h y (by simp [hy])))
      simpa [join, commaSep, List.append_assoc] using this

theorem join_map_pairs {α : Type} (xs : List α) (f : α → Str) (g : α → List Tok) (d : Dialect)
    (h : ∀ x ∈ xs, ReadsP d (f x) (g x)) :
    ReadsP d (join b!", " (xs.map f)) (commaSep (xs.map g)) := by
  have := readsP_join d (xs.map fun x => (f x, g x)) (by
    intro p hp; simp at hp; obtain ⟨x, hx, rfl⟩ := hp; exact h x hx)
  simpa [List.map_map, Function.comp_def] using this

theorem readsP_colNames (d : Dialect) (cols : List Str) :
    ReadsP d (join b!", " (cols.map (quoteIdentifier d))) (colToks d cols) :=
  join_map_pairs cols _ _ d fun c _ => readsP_ident d c

end DdlText
