import Verif.Model.DriverDsn
import Verif.Spec.DriverDsn

/-!
# Lemmas for C107: queries of URLs are read back
-/

namespace Sqddl
open Go UrlSpec

/-- every character is a byte -/
def Bytes (s : Str) : Prop := ∀ c ∈ s, c.toNat < 256

theorem ofNat_toNat (c : Char) : Char.ofNat c.toNat = c := Char.ofNat_toNat c

theorem unhex_eq (c : Char) : unhex c = hexValue c := by
  by_cases h : c.toNat < 128
  · have : ∀ n : Fin 128, unhex (Char.ofNat n.val) = hexValue (Char.ofNat n.val) := by decide +kernel
    have h' := this ⟨c.toNat, h⟩
    rwa [ofNat_toNat] at h'
  · have ne : ∀ d : Char, d.toNat < 128 → c ≠ d := fun d hd e => h (e ▸ hd)
    have le : ∀ d : Char, d.toNat < 128 → ¬ c ≤ d := fun d hd e => h (by
      have : c.toNat ≤ d.toNat := e
      omega)
    have h1 : Go.lowerC c = c := by
      unfold Go.lowerC
      rw [if_neg (fun e => le 'Z' (by decide) e.2)]
    unfold unhex hexValue
    rw [h1, if_neg (fun e => le '9' (by decide) e.2), if_neg (fun e => le 'f' (by decide) e.2),
      if_neg (fun e => le 'F' (by decide) e.2)]
    symm
    rw [List.idxOf?_eq_none_iff]
    simp only [List.mem_cons, List.not_mem_nil, or_false, not_or]
    refine ⟨?_, ?_, ?_, ?_, ?_, ?_, ?_, ?_, ?_, ?_, ?_, ?_, ?_, ?_, ?_, ?_⟩ <;> exact ne _ (by decide)

theorem unescape_eq (s : Str) : queryUnescape s = UrlSpec.unescape s := by
  fun_induction queryUnescape s with
  | case1 => rfl
  | case2 a b r x y r' h1 h2 h3 ih =>
    rw [UrlSpec.unescape]
    rw [unhex_eq] at h2
    simp_all [unhex_eq, Nat.mul_comm]
  | case3 a b r h ih =>
    rw [UrlSpec.unescape]
    simp only [if_true]
    rw [← unhex_eq, ← unhex_eq, ← ih]
    cases h1 : unhex a with
    | none => rfl
    | some x =>
      cases h2 : unhex b with
      | none => rfl
      | some y =>
        cases h3 : queryUnescape r with
        | none => rfl
        | some t => exact (h x y t h1 h2 h3).elim
  | case4 r hne =>
    match r, hne with
    | [], _ => simp [UrlSpec.unescape]
    | [a], _ => simp [UrlSpec.unescape]
    | a :: b :: r, hne => exact (hne a b r rfl rfl).elim
  | case5 c r hne hc ih =>
    have e : UrlSpec.unescape (c :: r) = (do
        let s ← UrlSpec.unescape r
        return (if c = '+' then ' ' else c) :: s) := by
      cases r with
      | nil => simp [UrlSpec.unescape, hc]
      | cons a r =>
        cases r with
        | nil => simp [UrlSpec.unescape, hc]
        | cons b r => simp [UrlSpec.unescape, hc]
    rw [e, ih]
    cases UrlSpec.unescape r <;> rfl

/-! ## Reading a query -/

theorem takeWhile_length_le (p : Char → Bool) (s : Str) : (s.takeWhile p).length ≤ s.length :=
  (List.takeWhile_prefix p).length_le

theorem drop_takeWhile (p : Char → Bool) (s : Str) : s.drop (s.takeWhile p).length = s.dropWhile p := by
  induction s with
  | nil => rfl
  | cons c s ih =>
    by_cases h : p c = true
    · simp [List.takeWhile_cons, List.dropWhile_cons, h, ih]
    · simp [List.takeWhile_cons, List.dropWhile_cons, h]

theorem drop_takeWhile_succ (p : Char → Bool) (s : Str) :
    s.drop ((s.takeWhile p).length + 1) = (s.dropWhile p).drop 1 := by
  rw [← List.drop_drop, drop_takeWhile]

theorem splitAt_eq (sep : Char) (s : Str) :
    splitAt sep s = s.takeWhile (· ≠ sep) ::
      (if sep ∈ s then splitAt sep ((s.dropWhile (· ≠ sep)).drop 1) else []) := by
  induction s with
  | nil => simp [splitAt]
  | cons c s ih =>
    by_cases h : c = sep
    · subst h; simp [splitAt]
    · simp only [splitAt, if_neg h, ih]
      have h' : ¬ sep = c := fun e => h e.symm
      simp [List.takeWhile_cons, List.dropWhile_cons, h, h']

theorem takeWhile_free' {s : Str} {c : Char} (h : c ∉ s) :
    s.takeWhile (· ≠ c) = s ∧ s.dropWhile (· ≠ c) = [] := by
  induction s with
  | nil => simp
  | cons d s ih =>
    have hd : d ≠ c := fun e => h (by simp [e])
    have ih := ih (fun e => h (List.mem_cons_of_mem _ e))
    simp [List.takeWhile_cons, List.dropWhile_cons, hd]
    exact ⟨by simpa using ih.1, by simpa using ih.2⟩

theorem queryPart_eq (key : Str) :
    queryPart key = if key = [] then some none else (readPair key).map some := by
  unfold queryPart readPair
  by_cases h1 : ';' ∈ key
  · have h2 : key ≠ [] := fun e => by rw [e] at h1; cases h1
    rw [if_pos h1, if_neg h2]
    simp [h1]
  · rw [if_neg h1]
    by_cases h2 : key = []
    · rw [if_pos h2, if_pos h2]
    · rw [if_neg h2, if_neg h2]
      dsimp only
      rw [unescape_eq, unescape_eq, drop_takeWhile_succ]
      simp only [h1, if_false]
      cases UrlSpec.unescape (key.takeWhile (· ≠ '=')) with
      | none => rfl
      | some k =>
        cases UrlSpec.unescape ((key.dropWhile (· ≠ '=')).drop 1) with
        | none => rfl
        | some v => rfl

theorem parseQuery_eq (s : Str) : parseQuery s = readQuery s := by
  induction hlen : s.length using Nat.strongRecOn generalizing s with
  | _ n ih =>
  by_cases hs : s = []
  · subst hs; rw [parseQuery]; rfl
  · have hpos : 0 < s.length := by cases s with
      | nil => exact absurd rfl hs
      | cons c r => simp
    rw [parseQuery, dif_neg hs]
    dsimp only
    have ih' := ih _ (by rw [List.length_drop, ← hlen]; omega)
      (s.drop ((s.takeWhile (· ≠ '&')).length + 1)) rfl
    rw [ih', queryPart_eq, drop_takeWhile_succ]
    unfold readQuery
    rw [splitAt_eq '&' s]
    generalize s.takeWhile (· ≠ '&') = key
    have rest : readQuery ((s.dropWhile (· ≠ '&')).drop 1) =
        ((if '&' ∈ s then splitAt '&' ((s.dropWhile (· ≠ '&')).drop 1) else []).filter
          (fun p => !p.isEmpty)).mapM readPair := by
      by_cases h : '&' ∈ s
      · rw [if_pos h]; rfl
      · rw [if_neg h]
        have : s.dropWhile (· ≠ '&') = [] := (takeWhile_free' h).2
        rw [this]; rfl
    unfold readQuery at rest
    rw [rest]
    generalize (if '&' ∈ s then splitAt '&' ((s.dropWhile (· ≠ '&')).drop 1) else []) = l
    by_cases hk : key = []
    · subst hk
      rw [if_pos rfl]
      simp only [List.filter_cons, List.isEmpty_nil, Bool.not_true, Bool.false_eq_true, if_false]
      cases (l.filter (fun p => !p.isEmpty)).mapM readPair <;> rfl
    · have hk' : (!key.isEmpty) = true := by cases key with
        | nil => exact absurd rfl hk
        | cons c r => rfl
      rw [if_neg hk]
      simp only [List.filter_cons, hk', if_true, List.mapM_cons]
      cases readPair key with
      | none => rfl
      | some x =>
        cases (l.filter (fun p => !p.isEmpty)).mapM readPair <;> rfl

/-! ## Writing a query -/

theorem hex_ok : ∀ n : Fin 16, unhex (upperHex n.val) = some n.val := by decide

theorem kept_ne {c : Char} (h : keptInQuery c = true) :
    c ≠ '%' ∧ c ≠ '+' ∧ c ≠ '&' ∧ c ≠ '=' ∧ c ≠ ';' ∧ c ≠ '/' ∧ c ≠ '?' := by
  refine ⟨?_, ?_, ?_, ?_, ?_, ?_, ?_⟩ <;> (intro e; subst e; revert h; decide)

theorem hex_ne (n : Nat) : keptInQuery (upperHex n) = true := by
  unfold upperHex
  by_cases h : n < 16
  · have : ∀ n : Fin 16, keptInQuery (((b!"0123456789ABCDEF")[n.val]?).getD '0') = true := by decide
    exact this ⟨n, h⟩
  · have : (b!"0123456789ABCDEF")[n]? = none := by
      rw [List.getElem?_eq_none_iff]
      simp; omega
    rw [this]; rfl

theorem queryUnescape_escape {s : Str} (h : Bytes s) : queryUnescape (queryEscape s) = some s := by
  induction s with
  | nil => rfl
  | cons c s ih =>
    have ih := ih (fun d hd => h d (List.mem_cons_of_mem _ hd))
    have hc : c.toNat < 256 := h c (List.mem_cons_self ..)
    rw [queryEscape]
    by_cases h1 : c = ' '
    · rw [if_pos h1]
      show queryUnescape ('+' :: queryEscape s) = _
      rw [queryUnescape]
      · simp [ih, h1]
      · intro a b r e; cases e
    · rw [if_neg h1]
      by_cases h2 : keptInQuery c = true
      · rw [if_pos h2]
        obtain ⟨n1, n2, _⟩ := kept_ne h2
        show queryUnescape (c :: queryEscape s) = _
        rw [queryUnescape]
        · simp [ih, n1, n2]
        · intro a b r e
          exact fun _ => n1 e
      · rw [if_neg h2]
        show queryUnescape ('%' :: upperHex (c.toNat / 16) :: upperHex (c.toNat % 16) :: queryEscape s) = _
        rw [queryUnescape, hex_ok ⟨c.toNat / 16, by omega⟩, hex_ok ⟨c.toNat % 16, by omega⟩, ih]
        dsimp only
        have : c.toNat / 16 * 16 + c.toNat % 16 = c.toNat := by omega
        rw [this, ofNat_toNat]

theorem escape_mem {s : Str} {c : Char} (h : c ∈ queryEscape s) :
    keptInQuery c = true ∨ c = '+' ∨ c = '%' := by
  induction s with
  | nil => cases h
  | cons d s ih =>
    rw [queryEscape, List.mem_append] at h
    rcases h with h | h
    · by_cases h1 : d = ' '
      · rw [if_pos h1] at h
        simp at h; exact .inr (.inl h)
      · rw [if_neg h1] at h
        by_cases h2 : keptInQuery d = true
        · rw [if_pos h2] at h
          simp at h; exact .inl (h ▸ h2)
        · rw [if_neg h2] at h
          simp only [List.mem_cons, List.not_mem_nil, or_false] at h
          rcases h with rfl | rfl | rfl
          · exact .inr (.inr rfl)
          · exact .inl (hex_ne _)
          · exact .inl (hex_ne _)
    · exact ih h

theorem escape_free {s : Str} {c : Char} (hc : keptInQuery c = false) (h1 : c ≠ '+') (h2 : c ≠ '%') :
    c ∉ queryEscape s := by
  intro h
  rcases escape_mem h with h | h | h
  · rw [hc] at h; cases h
  · exact h1 h
  · exact h2 h

/-- the text of one parameter -/
def pairText (x : Str × Str) : Str := queryEscape x.1 ++ b!"=" ++ queryEscape x.2

theorem pairText_free (x : Str × Str) {c : Char} (hc : keptInQuery c = false) (h1 : c ≠ '+')
    (h2 : c ≠ '%') (h3 : c ≠ '=') : c ∉ pairText x := by
  unfold pairText
  simp only [List.mem_append, List.mem_cons, List.not_mem_nil, or_false, not_or]
  exact ⟨⟨escape_free hc h1 h2, h3⟩, escape_free hc h1 h2⟩

theorem takeWhile_free {s : Str} {c : Char} (h : c ∉ s) (t : Str) :
    (s ++ c :: t).takeWhile (· ≠ c) = s ∧ (s ++ c :: t).dropWhile (· ≠ c) = c :: t := by
  induction s with
  | nil => simp
  | cons d s ih =>
    have hd : d ≠ c := fun e => h (by simp [e])
    have ih := ih (fun e => h (List.mem_cons_of_mem _ e))
    simp [List.takeWhile_cons, List.dropWhile_cons, hd]
    exact ⟨by simpa using ih.1, by simpa using ih.2⟩

theorem readPair_text {x : Str × Str} (h1 : Bytes x.1) (h2 : Bytes x.2) :
    readPair (pairText x) = some x := by
  have hs : ';' ∉ pairText x := pairText_free x (by decide) (by decide) (by decide) (by decide)
  have he : pairText x = queryEscape x.1 ++ '=' :: queryEscape x.2 := by simp [pairText]
  have hf := takeWhile_free (c := '=') (s := queryEscape x.1)
    (escape_free (by decide) (by decide) (by decide)) (queryEscape x.2)
  unfold readPair
  simp only [hs, if_false]
  rw [he, hf.1, hf.2, ← unescape_eq, ← unescape_eq, queryUnescape_escape h1]
  simp [queryUnescape_escape h2]

theorem splitAt_join (l : List Str) (hl : l ≠ []) (h : ∀ s ∈ l, '&' ∉ s) :
    splitAt '&' (join b!"&" l) = l := by
  induction l with
  | nil => exact absurd rfl hl
  | cons x l ih =>
    have hx := h x (List.mem_cons_self ..)
    cases l with
    | nil =>
      show splitAt '&' x = _
      rw [splitAt_eq, if_neg hx, (takeWhile_free' hx).1]
    | cons y r =>
      have ih := ih (by simp) (fun s hs => h s (List.mem_cons_of_mem _ hs))
      have e : join b!"&" (x :: y :: r) = x ++ '&' :: join b!"&" (y :: r) := by
        show x ++ b!"&" ++ join b!"&" (y :: r) = _
        simp
      rw [e, splitAt_eq, (takeWhile_free hx _).1, (takeWhile_free hx _).2, if_pos (by simp)]
      exact congrArg (x :: ·) ih

theorem readQuery_join (l : List (Str × Str)) (h : ∀ x ∈ l, Bytes x.1 ∧ Bytes x.2) :
    readQuery (join b!"&" (l.map pairText)) = some l := by
  have filter_id : (l.map pairText).filter (fun p => !p.isEmpty) = l.map pairText := by
    rw [List.filter_eq_self]
    intro s hs
    obtain ⟨x, _, rfl⟩ := List.mem_map.mp hs
    unfold pairText
    cases queryEscape x.1 <;> rfl
  have mapM : (l.map pairText).mapM readPair = some l := by
    clear filter_id
    induction l with
    | nil => rfl
    | cons x l ih =>
      have hx := h x (List.mem_cons_self ..)
      have ih := ih (fun y hy => h y (List.mem_cons_of_mem _ hy))
      rw [List.map_cons, List.mapM_cons, readPair_text hx.1 hx.2, ih]
      rfl
  unfold readQuery
  by_cases hl : l = []
  · subst hl; rfl
  · rw [splitAt_join _ (by simpa using hl) (by
      intro s hs
      obtain ⟨x, _, rfl⟩ := List.mem_map.mp hs
      exact pairText_free x (by decide) (by decide) (by decide) (by decide)), filter_id, mapM]

/-! ## The order of the keys -/

theorem insertSorted_mem {k x : Str} {ks : List Str} : x ∈ insertSorted k ks ↔ x = k ∨ x ∈ ks := by
  induction ks with
  | nil => simp [insertSorted]
  | cons y r ih =>
    unfold insertSorted
    by_cases h2 : strLt k y = true
    · rw [if_pos h2]; simp
    · rw [if_neg h2]
      simp only [List.mem_cons, ih]
      constructor
      · rintro (h | h | h)
        · exact .inr (.inl h)
        · exact .inl h
        · exact .inr (.inr h)
      · rintro (h | h | h)
        · exact .inr (.inl h)
        · exact .inl h
        · exact .inr (.inr h)

theorem insertSorted_nodup {k : Str} {ks : List Str} (h : ks.Nodup) (hk : k ∉ ks) :
    (insertSorted k ks).Nodup := by
  induction ks with
  | nil => simp [insertSorted]
  | cons y r ih =>
    obtain ⟨hy, hr⟩ := List.nodup_cons.mp h
    unfold insertSorted
    by_cases h2 : strLt k y = true
    · rw [if_pos h2]; exact List.nodup_cons.mpr ⟨hk, h⟩
    · rw [if_neg h2]
      refine List.nodup_cons.mpr ⟨?_, ih hr (fun e => hk (List.mem_cons_of_mem _ e))⟩
      rw [insertSorted_mem]
      rintro (e | e)
      · exact hk (by rw [← e]; exact List.mem_cons_self ..)
      · exact hy e

theorem sortedKeys_ok (ps : List (Str × Str)) :
    (sortedKeys ps).Nodup ∧ ∀ k, k ∈ sortedKeys ps ↔ ∃ x ∈ ps, x.1 = k := by
  induction ps with
  | nil => exact ⟨List.nodup_nil, fun k => by simp [sortedKeys]⟩
  | cons x ps ih =>
    obtain ⟨hn, hm⟩ := ih
    have e0 : sortedKeys (x :: ps) =
        if (sortedKeys ps).contains x.1 then sortedKeys ps else insertSorted x.1 (sortedKeys ps) := rfl
    rw [e0]
    by_cases h : x.1 ∈ sortedKeys ps
    · rw [if_pos (by simpa using h)]
      refine ⟨hn, fun k => ?_⟩
      rw [hm k]
      constructor
      · rintro ⟨y, hy, e⟩; exact ⟨y, List.mem_cons_of_mem _ hy, e⟩
      · rintro ⟨y, hy, e⟩
        rcases List.mem_cons.mp hy with rfl | hy
        · exact (hm k).mp (e ▸ h)
        · exact ⟨y, hy, e⟩
    · rw [if_neg (by simpa using h)]
      refine ⟨insertSorted_nodup hn h, fun k => ?_⟩
      rw [insertSorted_mem, hm k]
      constructor
      · rintro (e | ⟨y, hy, e⟩)
        · exact ⟨x, List.mem_cons_self .., e.symm⟩
        · exact ⟨y, List.mem_cons_of_mem _ hy, e⟩
      · rintro ⟨y, hy, e⟩
        rcases List.mem_cons.mp hy with rfl | hy
        · exact .inl e.symm
        · exact .inr ⟨y, hy, e⟩

/-- the values of one key in the order of the keys -/
theorem grouped_filter (ps : List (Str × Str)) (k : Str) (ks : List Str) (hn : ks.Nodup) :
    ((ks.flatMap (fun k => ps.filter (fun x => x.1 == k))).filter (fun x => x.1 == k)) =
      if k ∈ ks then ps.filter (fun x => x.1 == k) else [] := by
  induction ks with
  | nil => rfl
  | cons y r ih =>
    obtain ⟨hy, hr⟩ := List.nodup_cons.mp hn
    rw [List.flatMap_cons, List.filter_append, ih hr]
    by_cases h : k = y
    · subst h
      rw [if_neg hy, if_pos (List.mem_cons_self ..), List.filter_filter, List.append_nil]
      simp
    · have h1 : (ps.filter (fun x => x.1 == y)).filter (fun x => x.1 == k) = [] := by
        rw [List.filter_filter, List.filter_eq_nil_iff]
        intro x _ hx
        simp at hx
        exact h (hx.1 ▸ hx.2 ▸ rfl)
      rw [h1]
      simp [h]

/-- the parameters in the order in which they are written -/
def grouped (ps : List (Str × Str)) : List (Str × Str) :=
  (sortedKeys ps).flatMap (fun k => ps.filter (fun x => x.1 == k))

theorem grouped_values (ps : List (Str × Str)) (k : Str) :
    valuesOf k (grouped ps) = valuesOf k ps := by
  unfold valuesOf grouped
  rw [grouped_filter ps k _ (sortedKeys_ok ps).1]
  by_cases h : k ∈ sortedKeys ps
  · rw [if_pos h]
  · rw [if_neg h]
    have : ps.filter (fun x => x.1 == k) = [] := by
      rw [List.filter_eq_nil_iff]
      intro x hx e
      exact h (((sortedKeys_ok ps).2 k).mpr ⟨x, hx, by simpa using e⟩)
    rw [this]

/-- every name and value consists of bytes -/
def BytesAll (ps : List (Str × Str)) : Prop := ∀ x ∈ ps, Bytes x.1 ∧ Bytes x.2

theorem readQuery_encode {ps : List (Str × Str)} (h : BytesAll ps) :
    readQuery (encodeQuery ps) = some (grouped ps) := by
  have : encodeQuery ps = join b!"&" ((grouped ps).map pairText) := rfl
  rw [this]
  refine readQuery_join _ (fun x hx => ?_)
  unfold grouped at hx
  rw [List.mem_flatMap] at hx
  obtain ⟨k, _, hx⟩ := hx
  exact h x (List.mem_filter.mp hx).1

theorem join_free {c : Char} (hc : c ≠ '&') (l : List Str) (h : ∀ s ∈ l, c ∉ s) :
    c ∉ join b!"&" l := by
  induction l with
  | nil => intro h; cases h
  | cons x l ih =>
    have ih := ih (fun s hs => h s (List.mem_cons_of_mem _ hs))
    have hx := h x (List.mem_cons_self ..)
    cases l with
    | nil => exact hx
    | cons y r =>
      show c ∉ x ++ b!"&" ++ join b!"&" (y :: r)
      simp only [List.mem_append, List.mem_cons, List.not_mem_nil, or_false, not_or]
      exact ⟨⟨hx, hc⟩, ih⟩

theorem encode_free (ps : List (Str × Str)) {c : Char} (hc : keptInQuery c = false) (h1 : c ≠ '+')
    (h2 : c ≠ '%') (h3 : c ≠ '=') (h4 : c ≠ '&') : c ∉ encodeQuery ps := by
  refine join_free h4 _ (fun s hs => ?_)
  obtain ⟨x, _, rfl⟩ := List.mem_map.mp hs
  exact pairText_free x hc h1 h2 h3

/-! ## Bytes -/

theorem hexValue_lt {c : Char} {n : Nat} (h : hexValue c = some n) : n < 16 := by
  unfold hexValue at h
  have := (List.idxOf?_eq_some_iff.mp h).1
  simpa using this

theorem bytes_unescape {s t : Str} (hs : Bytes s) (h : queryUnescape s = some t) : Bytes t := by
  induction hlen : s.length using Nat.strongRecOn generalizing s t with
  | _ n ih =>
  match s, hs, h with
  | [], _, h => rw [queryUnescape] at h; cases h; intro c hc; cases hc
  | c :: r, hs, h =>
    by_cases hc : c = '%'
    · subst hc
      match r, hs, h with
      | [], _, h => simp [queryUnescape] at h
      | [a], _, h => simp [queryUnescape] at h
      | a :: b :: r, hs, h =>
        rw [queryUnescape] at h
        cases h1 : unhex a with
        | none => rw [h1] at h; cases h
        | some x =>
          cases h2 : unhex b with
          | none => rw [h1, h2] at h; cases h
          | some y =>
            cases h3 : queryUnescape r with
            | none => rw [h1, h2, h3] at h; cases h
            | some u =>
              rw [h1, h2, h3] at h
              cases h
              have hx := hexValue_lt (unhex_eq a ▸ h1)
              have hy := hexValue_lt (unhex_eq b ▸ h2)
              have hu := ih r.length (by rw [← hlen]; simp only [List.length_cons]; omega) (s := r)
                (fun d hd => hs d (by simp [hd])) h3 rfl
              intro d hd
              rcases List.mem_cons.mp hd with rfl | hd
              · have : ∀ m : Fin 256, (Char.ofNat m.val).toNat < 256 := by decide +kernel
                exact this ⟨x * 16 + y, by omega⟩
              · exact hu d hd
    · have e : queryUnescape (c :: r) = (queryUnescape r).map ((if c = '+' then ' ' else c) :: ·) := by
        rw [queryUnescape]
        · rw [if_neg hc]
        · intro a b r' e; exact fun _ => hc e
      rw [e] at h
      cases h3 : queryUnescape r with
      | none => rw [h3] at h; cases h
      | some u =>
        rw [h3] at h
        cases h
        have hu := ih r.length (by rw [← hlen]; simp) (s := r)
          (fun d hd => hs d (by simp [hd])) h3 rfl
        intro d hd
        rcases List.mem_cons.mp hd with rfl | hd
        · by_cases h4 : c = '+'
          · rw [if_pos h4]; decide
          · rw [if_neg h4]; exact hs c (by simp)
        · exact hu d hd

theorem bytes_sub {s t : Str} (h : Bytes s) (hs : ∀ c ∈ t, c ∈ s) : Bytes t :=
  fun c hc => h c (hs c hc)

theorem bytes_parse {s : Str} {ps : List (Str × Str)} (hs : Bytes s) (h : parseQuery s = some ps) :
    BytesAll ps := by
  induction hlen : s.length using Nat.strongRecOn generalizing s ps with
  | _ n ih =>
  by_cases he : s = []
  · subst he; rw [parseQuery] at h; cases h; intro x hx; cases hx
  · have hpos : 0 < s.length := by cases s with
      | nil => exact absurd rfl he
      | cons c r => simp
    rw [parseQuery, dif_neg he] at h
    dsimp only at h
    have ih' := fun ps hp => ih _ (by rw [List.length_drop, ← hlen]; omega)
      (s := s.drop ((s.takeWhile (· ≠ '&')).length + 1)) (ps := ps)
      (bytes_sub hs (fun c hc => List.mem_of_mem_drop hc)) hp rfl
    have hk : Bytes (s.takeWhile (· ≠ '&')) :=
      bytes_sub hs (fun c hc => (List.takeWhile_prefix _).subset hc)
    revert h
    generalize hkey : s.takeWhile (· ≠ '&') = key at hk
    rw [hkey] at ih'
    intro h
    cases hp : queryPart key with
    | none => rw [hp] at h; cases h
    | some o =>
      cases hr : parseQuery (s.drop (key.length + 1)) with
      | none => rw [hp, hr] at h; cases o <;> cases h
      | some qs =>
        rw [hp, hr] at h
        cases o with
        | none => cases h; exact ih' _ hr
        | some x =>
          cases h
          intro y hy
          rcases List.mem_cons.mp hy with rfl | hy
          · unfold queryPart at hp
            by_cases h1 : ';' ∈ key
            · rw [if_pos h1] at hp; cases hp
            · rw [if_neg h1] at hp
              by_cases h2 : key = []
              · rw [if_pos h2] at hp; cases hp
              · rw [if_neg h2] at hp
                dsimp only at hp
                cases u1 : queryUnescape (key.takeWhile (· ≠ '=')) with
                | none => rw [u1] at hp; cases hp
                | some k =>
                  cases u2 : queryUnescape (key.drop ((key.takeWhile (· ≠ '=')).length + 1)) with
                  | none => rw [u1, u2] at hp; cases hp
                  | some v =>
                    rw [u1, u2] at hp
                    cases hp
                    exact ⟨bytes_unescape (bytes_sub hk
                        (fun c hc => (List.takeWhile_prefix _).subset hc)) u1,
                      bytes_unescape (bytes_sub hk (fun c hc => List.mem_of_mem_drop hc)) u2⟩
          · exact ih' _ hr y hy

end Sqddl
