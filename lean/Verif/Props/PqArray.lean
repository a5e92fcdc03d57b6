import Verif.Model.PqArray

/-!
# C50: Postgres arrays survive encoding and decoding
-/

namespace PqSpec

/-- The text between the quotes of an element, and what it stands for: a backslash makes the next
byte stand for itself. -/
inductive Unescape : Str → Str → Prop
  | nil : Unescape [] []
  | char (c b v) : c ≠ '"' → c ≠ '\\' → Unescape b v → Unescape (c :: b) (c :: v)
  | esc (c b v) : Unescape b v → Unescape ('\\' :: c :: b) (c :: v)

/-- The text of an element of an array and its value: `none` is NULL. -/
inductive ElemText : Str → Option Str → Prop
  | quoted (b v) : Unescape b v → ElemText ('"' :: b ++ ['"']) (some v)
  | plain (w) : w ≠ [] → (∀ c ∈ w, c ∉ [',', '}']) → w.head? ≠ some '{' → w.head? ≠ some '"' →
      w ≠ b!"NULL" → ElemText w (some w)
  | null : ElemText b!"NULL" none

/-- One text for every value. -/
inductive ElemTexts : List Str → List (Option Str) → Prop
  | nil : ElemTexts [] []
  | cons (t v ts vs) : ElemText t v → ElemTexts ts vs → ElemTexts (t :: ts) (v :: vs)

/-- A byte string (every character stands for one byte). -/
def Bytes (s : Str) : Prop := ∀ c ∈ s, c.toNat < 256

end PqSpec

namespace Sqddl.PqArray
open PqSpec Go

theorem quotedLoop_unescape {b v : Str} (h : Unescape b v) (r : Str) :
    quotedLoop (b ++ '"' :: r) = some (v, r) := by
  induction h with
  | nil => simp [quotedLoop]
  | char c b v h1 h2 _ ih =>
    rw [List.cons_append, quotedLoop]
    · rw [ih]; rfl
    · intro h; exact absurd h h2
    · intro x y h; exact absurd h h2
    · exact fun h => absurd h h1
  | esc c b v _ ih =>
    rw [List.cons_append, List.cons_append, quotedLoop, ih]
    rfl

theorem plainElem_word {w : Str} (h : ∀ c ∈ w, c ∉ [',', '}']) (x : Char) (r : Str)
    (hx : x = ',' ∨ x = '}') : plainElem ',' (w ++ x :: r) = (w, x :: r) := by
  unfold plainElem
  induction w with
  | nil => rcases hx with rfl | rfl <;> simp
  | cons c w ih =>
    have h1 := h c (by simp)
    simp at h1
    have := ih fun c hc => h c (by simp [hc])
    simp only [Prod.mk.injEq] at this
    simp only [List.cons_append, List.takeWhile_cons, List.dropWhile_cons]
    have hd : (decide (c ≠ ',' ∧ c ≠ '}')) = true := by simp [h1]
    simp only [hd, if_true]
    simp only [this]

/-- One element is read up to the delimiter or brace behind it. -/
theorem parseLoop_elem {t : Str} {v : Option Str} (h : ElemText t v) (x : Char) (r : Str)
    (hx : x = ',' ∨ x = '}') (dims : List Nat) (depth : Nat) (elems : List (Option Str)) :
    parseLoop ',' true dims depth elems (t ++ x :: r) =
      parseLoop ',' false dims depth (elems ++ [v]) (x :: r) := by
  have hword : ∀ w : Str, w ≠ [] → (∀ c ∈ w, c ∉ [',', '}']) → w.head? ≠ some '{' →
      w.head? ≠ some '"' → parseLoop ',' true dims depth elems (w ++ x :: r) =
      parseLoop ',' false dims depth (elems ++ [if w = b!"NULL" then none else some w]) (x :: r) := by
    intro w h0 h1 h2 h3
    have hp := plainElem_word h1 x r hx
    cases w with
    | nil => simp at h0
    | cons c w =>
      simp at h2 h3
      rw [List.cons_append, parseLoop]
      simp only [if_true, h2, h3, if_false]
      rw [List.cons_append] at hp
      rw [hp]
      simp
  cases h with
  | quoted b v hb =>
    have hq := quotedLoop_unescape hb (x :: r)
    simp only [List.cons_append, List.append_assoc, List.nil_append]
    rw [parseLoop]
    have h0 : ('"' = '{') = False := by simp
    simp only [if_true, h0, if_false]
    split
    · rename_i hn; rw [hq] at hn; simp at hn
    · rename_i e t' hs; rw [hq] at hs; injection hs with hs; injection hs with h1 h2; subst h1 h2; rfl
  | plain w h0 h1 h2 h3 h4 => rw [hword t h0 h1 h2 h3, if_neg h4]
  | null =>
    rw [hword b!"NULL" (by simp) (by decide) (by decide) (by decide)]
    rfl

theorem parseLoop_elems (ts : List Str) (vs : List (Option Str)) (h : ElemTexts ts vs) (hne : ts ≠ [])
    (n : Nat) (elems : List (Option Str)) :
    parseLoop ',' true [n] 1 elems (join b!"," ts ++ b!"}") =
      parseLoop.finish [n + ts.length] 0 (elems ++ vs) := by
  induction h generalizing n elems with
  | nil => simp at hne
  | cons t v ts vs ht hts ih =>
    cases hts with
    | nil =>
      simp only [join]
      rw [parseLoop_elem ht '}' [] (by simp)]
      rw [parseLoop]
      simp [parseLoop]
    | cons t2 v2 ts vs ht2 hts =>
      simp only [join, List.append_assoc, List.cons_append, List.nil_append]
      rw [parseLoop_elem ht ',' _ (by simp), parseLoop]
      simp
      have := ih (by simp) (n + 1) (elems ++ [v])
      simp only [List.append_assoc, List.singleton_append, List.length_cons] at this
      rw [this]
      simp [Nat.add_assoc, Nat.add_comm]

/-- **C50**: the text of a one-dimensional array is read as the array: every element is either in
quotes with backslashes for quotes and backslashes, or a plain word, or NULL. -/
theorem parseArray_text (ts : List Str) (vs : List (Option Str)) (h : ElemTexts ts vs) :
    parseArray ',' (arrayText ts) = .ok (if ts = [] then [] else [ts.length]) vs := by
  by_cases hne : ts = []
  · subst hne
    cases h
    simp [arrayText, join, parseArray, closeLoop]
  · rw [if_neg hne]
    have hhead : ∃ x r, join b!"," ts ++ b!"}" = x :: r ∧ x ≠ '{' ∧ x ≠ '}' := by
      cases h with
      | nil => simp at hne
      | cons t v ts vs ht _ =>
        have h1 : ∃ x r, t = x :: r ∧ x ≠ '{' ∧ x ≠ '}' := by
          cases ht with
          | quoted b v _ => exact ⟨_, _, rfl, by decide, by decide⟩
          | plain w h0 h1 h2 h3 h4 =>
            cases t with
            | nil => simp at h0
            | cons x r =>
              have := h1 x (by simp)
              simp at this h2
              exact ⟨x, r, rfl, h2, this.2⟩
          | null => exact ⟨_, _, rfl, by decide, by decide⟩
        obtain ⟨x, r, rfl, hx⟩ := h1
        cases ts with
        | nil => exact ⟨x, r ++ b!"}", by simp [join], hx⟩
        | cons t2 ts => exact ⟨x, r ++ [','] ++ join [','] (t2 :: ts) ++ ['}'], by simp only [join, List.cons_append], hx⟩
    obtain ⟨x, r, hx, hx1, hx2⟩ := hhead
    have hpos : 0 < ts.length := List.length_pos_iff.2 hne
    have hlen : vs.length = ts.length := by
      clear hne hx hpos
      induction h with
      | nil => rfl
      | cons _ _ _ _ _ _ ih => simp [ih]
    unfold parseArray arrayText
    rw [List.append_assoc, hx]
    simp only [List.singleton_append, List.head?_cons, ne_eq, not_true_eq_false, if_false]
    have ht : List.takeWhile (fun x => x == '{') ('{' :: x :: r) = ['{'] := by simp [hx1]
    have hd : List.dropWhile (fun x => x == '{') ('{' :: x :: r) = x :: r := by simp [hx1]
    rw [ht, hd]
    simp only [List.head?_cons, Option.some.injEq, hx2, if_false, List.length_cons, List.length_nil]
    rw [← hx]
    have := parseLoop_elems ts vs h hne 0 []
    simp only [Nat.zero_add, List.replicate_succ, List.replicate_zero] at this ⊢
    rw [this]
    simp [parseLoop.finish, hlen]
    omega

example : ElemTexts [b!"\"a\\\"b,\"", b!"x", b!"NULL"] [some b!"a\"b,", some b!"x", none] :=
  .cons _ _ _ _ (.quoted b!"a\\\"b," _ (.char _ _ _ (by decide) (by decide)
    (.esc _ _ _ (.char _ _ _ (by decide) (by decide) (.char _ _ _ (by decide) (by decide) .nil)))))
    (.cons _ _ _ _ (.plain _ (by decide) (by decide) (by decide) (by decide) (by decide))
      (.cons _ _ _ _ .null .nil))

/-! ## Round trips -/

theorem scanLinear_text {α : Type} (conv : Option Str → Option α) (ts : List Str)
    (vs : List (Option Str)) (h : ElemTexts ts vs) (xs : List α) (hx : vs.mapM conv = some xs) :
    scanLinear conv (arrayText ts) = .ok xs := by
  unfold scanLinear
  rw [parseArray_text ts vs h]
  simp only
  rw [if_neg (by split <;> simp), hx]

theorem elemTexts_map {α : Type} (f : α → Str) (g : α → Option Str) (xs : List α)
    (h : ∀ x ∈ xs, ElemText (f x) (g x)) : ElemTexts (xs.map f) (xs.map g) := by
  induction xs with
  | nil => exact .nil
  | cons x xs ih => exact .cons _ _ _ _ (h x (by simp)) (ih fun y hy => h y (by simp [hy]))

theorem mapM_some {α β : Type} (g : α → Option Str) (conv : Option Str → Option β) (k : α → β)
    (xs : List α) (h : ∀ x ∈ xs, conv (g x) = some (k x)) :
    (xs.map g).mapM conv = some (xs.map k) := by
  induction xs with
  | nil => rfl
  | cons x xs ih =>
    rw [List.map_cons, List.mapM_cons, h x (by simp), ih fun y hy => h y (by simp [hy])]
    rfl

theorem quoteElem_text (v : Str) : ElemText (quoteElem v) (some v) := by
  unfold quoteElem
  apply ElemText.quoted
  induction v with
  | nil => exact .nil
  | cons c v ih =>
    rw [List.flatMap_cons]
    split
    · exact .esc c _ _ ih
    · rename_i h
      simp at h
      exact .char c _ _ h.1 h.2 ih

/-- **C50**: arrays of strings come back as they were. -/
theorem scanStrings_value (xs : List Str) : scanStrings (stringsValue xs) = .ok xs := by
  have h := scanLinear_text id (xs.map quoteElem) (xs.map some)
    (elemTexts_map quoteElem some xs fun x _ => quoteElem_text x) xs (by
      have := mapM_some some id id xs (by simp)
      simpa using this)
  exact h

/-- **C50**: arrays of booleans come back as they were. -/
theorem scanBools_value (xs : List Bool) : scanBools (boolsValue xs) = .ok xs := by
  apply scanLinear_text _ _ (xs.map fun b => some (if b then b!"t" else b!"f"))
  · apply elemTexts_map
    intro b _
    cases b <;> exact .plain _ (by decide) (by decide) (by decide) (by decide) (by decide)
  · have := mapM_some (fun b => some (if b then b!"t" else b!"f")) (fun v => match v with
      | some ['t'] => some true
      | some ['f'] => some false
      | _ => none) id xs (by intro b _; cases b <;> rfl)
    rw [List.map_id] at this
    exact this

theorem toDigits_digits (n : Nat) : ∀ c ∈ Nat.toDigits 10 n, isDigit c = true := by
  intro c hc
  have := Nat.isDigit_of_mem_toDigits (by decide) (by decide) hc
  simp [Char.isDigit, isDigit, Char.le_def] at this ⊢
  exact this

theorem parseDigits_toDigits (n : Nat) : parseDigits (Nat.toDigits 10 n) = some n := by
  unfold parseDigits
  rw [if_pos, Nat.ofDigitChars_ten_toDigits]
  refine ⟨Nat.toDigits_ne_nil, ?_⟩
  rw [List.all_eq_true]
  exact toDigits_digits n

theorem parseInt64_formatInt (i : Int) (h : -2 ^ 63 ≤ i ∧ i < 2 ^ 63) :
    parseInt64 (formatInt i) = some i := by
  cases i with
  | ofNat n =>
    have hp := parseDigits_toDigits n
    have hd := toDigits_digits n
    unfold formatInt
    unfold parseInt64
    split
    · rename_i r hr; exact absurd (hd '-' (by simp [hr])) (by decide)
    · rename_i r hr; exact absurd (hd '+' (by simp [hr])) (by decide)
    · rw [hp]
      simp only
      rw [if_pos]
      · rfl
      · have := h.2; simp at this; omega
  | negSucc n =>
    have hp := parseDigits_toDigits (n + 1)
    simp only [formatInt, parseInt64]
    rw [hp]
    simp only
    rw [if_pos]
    · rfl
    · have := h.1
      omega

theorem formatInt_text (i : Int) : ElemText (formatInt i) (some (formatInt i)) := by
  have hd : ∀ c ∈ formatInt i, isDigit c = true ∨ c = '-' := by
    cases i with
    | ofNat n => exact fun c hc => .inl (toDigits_digits n c hc)
    | negSucc n =>
      intro c hc
      simp [formatInt] at hc
      rcases hc with rfl | hc
      · exact .inr rfl
      · exact .inl (toDigits_digits _ c hc)
  have hne : formatInt i ≠ [] := by
    cases i with
    | ofNat n => exact Nat.toDigits_ne_nil
    | negSucc n => simp [formatInt]
  have hnot : ∀ x : Char, isDigit x = false → x ≠ '-' → x ∉ formatInt i := by
    intro x h1 h2 h3
    rcases hd x h3 with h | h
    · simp [h1] at h
    · exact h2 h
  refine .plain _ hne ?_ ?_ ?_ ?_
  · intro c hc h
    simp at h
    rcases h with rfl | rfl
    · exact hnot ',' (by decide) (by decide) hc
    · exact hnot '}' (by decide) (by decide) hc
  · exact fun h => hnot '{' (by decide) (by decide) (List.mem_of_head? h)
  · exact fun h => hnot '"' (by decide) (by decide) (List.mem_of_head? h)
  · exact fun h => hnot 'N' (by decide) (by decide) (by simp [h])

/-- **C50**: arrays of 64-bit integers come back as they were. -/
theorem scanInts_value (xs : List Int) (h : ∀ i ∈ xs, -2 ^ 63 ≤ i ∧ i < 2 ^ 63) :
    scanInts (intsValue xs) = .ok xs := by
  apply scanLinear_text _ _ (xs.map fun i => some (formatInt i))
  · exact elemTexts_map _ _ _ fun i _ => formatInt_text i
  · have := mapM_some (fun i => some (formatInt i)) (fun v => parseInt64 (v.getD [])) id xs
      (fun i hi => parseInt64_formatInt i (h i hi))
    rw [List.map_id] at this
    exact this

example : ∀ i ∈ [(-9223372036854775808 : Int), 0, 9223372036854775807], -2 ^ 63 ≤ i ∧ i < 2 ^ 63 := by
  decide

theorem hexValue_hexDigit : ∀ n, n < 16 → hexValue (hexDigit n) = some n := by decide

theorem hexDecode_hexEncode (s : Str) (h : Bytes s) : hexDecode (hexEncode s) = some s := by
  induction s with
  | nil => rfl
  | cons c s ih =>
    have hc : c.toNat < 256 := h c (by simp)
    simp only [hexEncode, List.flatMap_cons, List.cons_append, List.nil_append, hexDecode]
    rw [hexValue_hexDigit _ (by omega), hexValue_hexDigit _ (by omega)]
    have := ih fun x hx => h x (by simp [hx])
    simp only [hexEncode] at this
    rw [this]
    simp only
    rw [Nat.div_add_mod, Char.ofNat_toNat]

theorem hexDigit_plain : ∀ n, n < 16 → hexDigit n ≠ '"' ∧ hexDigit n ≠ '\\' := by decide

theorem unescape_hex (s : Str) (h : Bytes s) : Unescape (hexEncode s) (hexEncode s) := by
  induction s with
  | nil => exact .nil
  | cons c s ih =>
    have hc : c.toNat < 256 := h c (by simp)
    have h1 := hexDigit_plain (c.toNat / 16) (by omega)
    have h2 := hexDigit_plain (c.toNat % 16) (by omega)
    exact .char _ _ _ h1.1 h1.2 (.char _ _ _ h2.1 h2.2 (ih fun x hx => h x (by simp [hx])))

/-- **C50**: arrays of byte strings come back as they were. -/
theorem scanByteas_value (xs : List Str) (h : ∀ x ∈ xs, Bytes x) :
    scanByteas (byteasValue xs) = .ok xs := by
  apply scanLinear_text _ _ (xs.map fun x => some (b!"\\x" ++ hexEncode x))
  · apply elemTexts_map
    intro x hx
    exact .quoted (b!"\\\\x" ++ hexEncode x) _
      (.esc _ _ _ (.char _ _ _ (by decide) (by decide) (unescape_hex x (h x hx))))
  · have := mapM_some (fun x => some (b!"\\x" ++ hexEncode x)) (fun v => parseBytea (v.getD [])) id xs
      (fun x hx => by simpa [parseBytea] using hexDecode_hexEncode x (h x hx))
    rw [List.map_id] at this
    exact this

example : Bytes [Char.ofNat 0, Char.ofNat 255, '\\'] := by unfold Bytes; decide

theorem octal_value : ∀ n, n < 256 →
    ([Nat.digitChar (n / 64), Nat.digitChar (n / 8 % 8), Nat.digitChar (n % 8)].all
      fun x => '0' ≤ x && x ≤ '7') = true ∧ Nat.digitChar (n / 64) ≠ '\\' ∧
    Nat.ofDigitChars 8 [Nat.digitChar (n / 64), Nat.digitChar (n / 8 % 8), Nat.digitChar (n % 8)] 0 = n := by
  decide +kernel

/-- **C50**: a byte string is encoded, in the old and in the new format, as something that is read as
the byte string. -/
theorem parseBytea_encode (version : Nat) (s : Str) (h : Bytes s) :
    parseBytea (encodeBytea version s) = some s := by
  unfold encodeBytea
  split
  · simpa [parseBytea] using hexDecode_hexEncode s h
  · have hesc : ∀ s, Bytes s → parseEscape (s.flatMap fun c =>
        if c = '\\' then b!"\\\\"
        else if c.toNat < 0x20 ∨ c.toNat > 0x7e then
          ['\\', Nat.digitChar (c.toNat / 64), Nat.digitChar (c.toNat / 8 % 8), Nat.digitChar (c.toNat % 8)]
        else [c]) = some s := by
      intro s h
      induction s with
      | nil => rfl
      | cons c s ih =>
        have hc : c.toNat < 256 := h c (by simp)
        have ih := ih fun x hx => h x (by simp [hx])
        rw [List.flatMap_cons]
        split
        · rename_i h0
          simp only [List.cons_append, List.nil_append, parseEscape, ih, h0]
          rfl
        split
        · obtain ⟨h1, h2, h3⟩ := octal_value c.toNat hc
          simp only [List.cons_append, List.nil_append]
          rw [parseEscape]
          · rw [if_pos ⟨h1, by rw [h3]; exact hc⟩, ih, h3, Char.ofNat_toNat]
            rfl
          · exact fun h => absurd h h2
        · rename_i h0 _
          rw [List.singleton_append, parseEscape, ih]
          · rfl
          all_goals intros; simp_all
    have hx : ∀ r, (s.flatMap fun c =>
        if c = '\\' then b!"\\\\"
        else if c.toNat < 0x20 ∨ c.toNat > 0x7e then
          ['\\', Nat.digitChar (c.toNat / 64), Nat.digitChar (c.toNat / 8 % 8), Nat.digitChar (c.toNat % 8)]
        else [c]) ≠ '\\' :: 'x' :: r := by
      intro r
      cases s with
      | nil => simp
      | cons c s =>
        have hc : c.toNat < 256 := h c (by simp)
        rw [List.flatMap_cons]
        split
        · simp
        split
        · have hd : ∀ n, n < 256 → Nat.digitChar (n / 64) ≠ 'x' := by decide +kernel
          have := hd _ hc
          simp [this]
        · rename_i h0 _
          simp [h0]
    unfold parseBytea
    split
    · rename_i r hr
      exact absurd hr (hx r)
    · exact hesc s h

/-! ## No text makes the parser panic -/

/-- Dimensions that are closed are not zero. -/
def Closed (dims : List Nat) (depth : Nat) : Prop :=
  depth ≤ dims.length ∧ ∀ k n, dims[k]? = some n → depth ≤ k → 0 < n

theorem finish_safe (dims : List Nat) (depth : Nat) (elems : List (Option Str)) (h : Closed dims depth) :
    parseLoop.finish dims depth elems ≠ .panic := by
  unfold parseLoop.finish
  split
  · simp
  split
  · rename_i h1 h2
    rw [List.any_eq_true] at h2
    obtain ⟨n, hn, h0⟩ := h2
    obtain ⟨k, hk⟩ := List.mem_iff_getElem?.1 hn
    have := h.2 k n hk (by omega)
    simp at h0
    omega
  split <;> simp

theorem parseLoop_safe (del : Char) (inElem : Bool) (dims : List Nat) (depth : Nat)
    (elems : List (Option Str)) (s : Str) (h : Closed dims depth) :
    parseLoop del inElem dims depth elems s ≠ .panic := by
  fun_induction parseLoop del inElem dims depth elems s with
  | case1 => exact finish_safe _ _ _ h
  | case2 => grind
  | case3 =>
    rename_i ih
    apply ih
    refine ⟨by simp; omega, ?_⟩
    intro k n hk hle
    rw [List.getElem?_set_ne (by omega)] at hk
    exact h.2 k n hk (by omega)
  | case4 => have := h.1; omega
  | case5 => exact finish_safe _ _ _ h
  | case6 => grind
  | case7 => exact finish_safe _ _ _ h
  | case8 => simp
  | case9 => grind
  | case10 => exact finish_safe _ _ _ h
  | case11 =>
    rename_i hn
    have := h.1
    simp at hn
    omega
  | case12 =>
    rename_i ih
    apply ih
    refine ⟨by simpa using h.1, ?_⟩
    intro k m hk hle
    rw [List.getElem?_set_ne (by omega)] at hk
    exact h.2 k m hk hle
  | case13 =>
    rename_i hn
    have := h.1
    simp at hn
    omega
  | case14 =>
    rename_i hn ih
    apply ih
    refine ⟨by have := h.1; simp; omega, ?_⟩
    intro k m hk hle
    rw [List.getElem?_set] at hk
    split at hk
    · simp at hk; omega
    · exact h.2 k m hk (by omega)
  | case15 => simp

theorem closeLoop_safe (depth : Nat) (s : Str) : closeLoop depth s ≠ .panic := by
  fun_induction closeLoop depth s with
  | case1 => simp
  | case2 => simp
  | case3 _ _ _ _ ih => exact ih
  | case4 => simp

/-- **C50**: scanning never panics, whatever the text and the delimiter. -/
theorem parseArray_total (del : Char) (s : Str) : parseArray del s ≠ .panic := by
  unfold parseArray
  split
  · simp
  simp only
  split
  · exact closeLoop_safe _ _
  · apply parseLoop_safe
    refine ⟨by simp, ?_⟩
    intro k n hk hle
    have := (List.getElem?_eq_some_iff.1 hk).1
    simp at this
    omega

/-- **C50**: none of the scan functions panics. -/
theorem scanLinear_total {α : Type} (conv : Option Str → Option α) (s : Str) :
    scanLinear conv s ≠ .panic := by
  unfold scanLinear
  split
  · simp
  · rename_i h; exact absurd h (parseArray_total _ _)
  · split
    · simp
    · split <;> simp

end Sqddl.PqArray
