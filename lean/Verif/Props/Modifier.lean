import Verif.Model.Modifier

/-!
# C30: ddl struct tags survive printing and parsing
-/

namespace ModifierSpec
open Sqddl

/-- Text with balanced braces. -/
inductive Braced : Str → Prop
  | nil : Braced []
  | char (x s) : x ∉ ['{', '}'] → Braced s → Braced (x :: s)
  | braces (a s) : Braced a → Braced s → Braced ('{' :: a ++ '}' :: s)

/-- The names of modifiers: non-empty, without the characters that end a name. -/
def PlainName (n : Str) : Prop := n ≠ [] ∧ ∀ c ∈ n, c ∉ [' ', '=', ':', '{', '}']

/-- A value: balanced braces, and the first character is not a brace unless there is a space. -/
def PlainValue (v : Str) : Prop := Braced v ∧ (' ' ∉ v → v.head? ≠ some '{')

mutual
/-- Modifiers that can be written as text: no dialects, plain names and values, and either a raw
value or a value with submodifiers. -/
def Printable : Modifier → Prop
  | .mk d n raw v subs => d = [] ∧ PlainName n ∧ PlainValue raw ∧ PlainValue v ∧
      (raw ≠ [] → v = [] ∧ subs = []) ∧ AllPrintable subs
/-- every modifier of a list is printable -/
def AllPrintable : List Modifier → Prop
  | [] => True
  | m :: ms => Printable m ∧ AllPrintable ms
end

/-- The text of a modifier with a name and (raw) value. -/
def textOf (n c : Str) : Str :=
  if c = [] then n else if ' ' ∈ c then n ++ b!"={" ++ c ++ b!"}" else n ++ b!"=" ++ c

mutual
/-- The raw value of a modifier: the one it has, or the text of its value and submodifiers. -/
def content : Modifier → Str
  | .mk _ _ raw v subs =>
    if raw ≠ [] then raw
    else if v = [] ∧ subs = [] then []
    else (if v = [] then b!"." else if ' ' ∈ v then b!"{" ++ v ++ b!"}" else v) ++ contents subs
/-- the texts of a list of modifiers, each with a space in front -/
def contents : List Modifier → Str
  | [] => []
  | m :: ms => ' ' :: textOf m.name (content m) ++ contents ms
end

/-- The modifier with its value written as a raw value. -/
def flat (m : Modifier) : Modifier := .mk [] m.name (content m) [] []

end ModifierSpec

namespace Sqddl
open ModifierSpec

theorem _root_.ModifierSpec.Braced.append {a b} (ha : Braced a) (hb : Braced b) : Braced (a ++ b) := by
  induction ha with
  | nil => exact hb
  | char x s hx _ ih => exact .char x _ hx ih
  | braces a s h1 _ _ ih2 => rw [List.append_assoc]; exact .braces a _ h1 ih2

theorem _root_.ModifierSpec.Braced.plain {a : Str} (h : ∀ c ∈ a, c ∉ ['{', '}']) : Braced a := by
  induction a with
  | nil => exact .nil
  | cons x a ih => exact .char x a (h x (by simp)) (ih fun c hc => h c (by simp [hc]))

theorem braced_name {n : Str} (h : PlainName n) : Braced n :=
  Braced.plain fun c hc => by have := h.2 c hc; simp_all

theorem braced_textOf {n c : Str} (hn : PlainName n) (hc : Braced c) : Braced (textOf n c) := by
  unfold textOf
  split
  · exact braced_name hn
  split
  · rw [List.append_assoc, List.append_assoc]
    exact (braced_name hn).append (.char '=' _ (by decide) (.braces c [] hc .nil))
  · rw [List.append_assoc]
    exact (braced_name hn).append (.char '=' _ (by decide) hc)

theorem getLast?_ne_of_not_mem {s : Str} {c : Char} (h : c ∉ s) : s.getLast? ≠ some c := by
  intro h1
  exact h (List.mem_of_getLast? h1)

theorem getLast?_concat_ne {s : Str} {c d : Char} (h : c ≠ d) : (s ++ [c]).getLast? ≠ some d := by
  simp [h]

theorem textOf_last {n c : Str} (hn : PlainName n) : (textOf n c).getLast? ≠ some ' ' ∧ textOf n c ≠ [] := by
  have h1 : ' ' ∉ n := fun h => by have := hn.2 _ h; simp at this
  have h2 := hn.1
  unfold textOf
  split
  · exact ⟨getLast?_ne_of_not_mem h1, h2⟩
  split
  · exact ⟨getLast?_concat_ne (by decide), by simp⟩
  · rename_i h3 h4
    constructor
    · apply getLast?_ne_of_not_mem
      simp [h1, h4]
    · simp [h2]

mutual
theorem writeBuf_eq (m : Modifier) (h : Printable m) (buf : Str) :
    writeBuf buf m = (if buf.length > 1 ∧ buf.getLast? ≠ some ' ' then buf ++ b!" " else buf) ++
      textOf m.name (content m) := by
  match m, h with
  | .mk d n raw v subs, h =>
    obtain ⟨h1, h2, h3, h4, h5, h6⟩ := h
    rw [writeBuf]
    rw [if_neg h2.1]
    generalize (if buf.length > 1 ∧ buf.getLast? ≠ some ' ' then buf ++ b!" " else buf) = pre
    simp only [Modifier.name]
    by_cases hr : raw = []
    · have hr' : ¬ raw ≠ [] := by simpa using hr
      rw [if_neg hr']
      by_cases hv : v = [] ∧ subs = []
      · rw [if_pos hv]
        simp [content, hr, hv, textOf]
      · rw [if_neg hv]
        have hc : content (.mk d n raw v subs) =
            (if v = [] then b!"." else if ' ' ∈ v then b!"{" ++ v ++ b!"}" else v) ++ contents subs := by
          rw [content, if_neg hr', if_neg hv]
        rw [hc]
        generalize hw : (if v = [] then b!"." else if ' ' ∈ v then b!"{" ++ v ++ b!"}" else v) = w
        have hwne : w ≠ [] := by
          rw [← hw]; split
          · simp
          · split
            · simp
            · assumption
        have hwl : w.getLast? ≠ some ' ' := by
          rw [← hw]; split
          · decide
          · split
            · exact getLast?_concat_ne (by decide)
            · exact getLast?_ne_of_not_mem ‹_›
        have hsp : ' ' ∈ w ↔ ' ' ∈ v := by
          rw [← hw]; split
          · rename_i h0; simp [h0]
          · split
            · rename_i h0; simp [h0]
            · rfl
        have hcs : ∀ s : List Modifier, s ≠ [] → ' ' ∈ contents s := by
          intro s hs; cases s with
          | nil => simp at hs
          | cons a b => simp [contents]
        have hB : (decide (' ' ∈ v ∨ subs ≠ [])) = decide (' ' ∈ w ++ contents subs) := by
          rw [decide_eq_decide]
          by_cases hs : subs = []
          · simp [hs, contents, hsp]
          · simp [hs, hcs subs hs]
        simp only [hB]
        have hne : w ++ contents subs ≠ [] := by simp [hwne]
        unfold textOf
        rw [if_neg hne]
        have hin : ∀ x : Str, writeBufs (x ++ b!"=" ++ w) subs = x ++ b!"=" ++ w ++ contents subs := by
          intro x
          apply writeBufs_eq subs h6
          · have := List.length_pos_iff.2 hwne
            simp; omega
          · rw [List.getLast?_append]
            cases hgl : w.getLast? with
            | none => simp [List.getLast?_eq_none_iff.1 hgl] at hwne
            | some y => simpa [hgl] using hwl
        have hin2 : ∀ x : Str, writeBufs (x ++ b!"=" ++ b!"{" ++ w) subs =
            x ++ b!"=" ++ b!"{" ++ w ++ contents subs := by
          intro x
          apply writeBufs_eq subs h6
          · simp; omega
          · rw [List.getLast?_append]
            cases hgl : w.getLast? with
            | none => simp [List.getLast?_eq_none_iff.1 hgl] at hwne
            | some y => simpa [hgl] using hwl
        by_cases hb : ' ' ∈ w ++ contents subs
        · simp only [hb, decide_true, if_true]
          rw [hin2]
          simp
        · simp only [hb, decide_false, Bool.false_eq_true, if_false, List.append_nil]
          rw [hin]
          simp
    · rw [if_pos hr]
      have hc : content (.mk d n raw v subs) = raw := by rw [content, if_pos hr]
      rw [hc]
      unfold textOf
      rw [if_neg hr]
      split <;> simp
theorem writeBufs_eq (ms : List Modifier) (h : AllPrintable ms) (buf : Str) (hl : buf.length > 1)
    (hlast : buf.getLast? ≠ some ' ') : writeBufs buf ms = buf ++ contents ms := by
  match ms, h with
  | [], _ => simp [writeBufs, contents]
  | m :: ms, h =>
    obtain ⟨h1, h2⟩ := h
    rw [writeBufs, writeBuf_eq m h1 buf, if_pos ⟨hl, hlast⟩, contents]
    have hn : PlainName m.name := by cases m; exact h1.2.1
    have ht := textOf_last (c := content m) hn
    rw [writeBufs_eq ms h2]
    · simp
    · simp; omega
    · rw [List.getLast?_append]
      cases hgl : (textOf m.name (content m)).getLast? with
      | none => simp [List.getLast?_eq_none_iff.1 hgl] at ht
      | some y => simpa [hgl] using ht.1
end

mutual
theorem content_braced (m : Modifier) (h : Printable m) : Braced (content m) := by
  match m, h with
  | .mk d n raw v subs, h =>
    obtain ⟨h1, h2, h3, h4, h5, h6⟩ := h
    rw [content]
    split
    · exact h3.1
    split
    · exact .nil
    apply Braced.append
    · split
      · exact .char _ _ (by decide) .nil
      · split
        · exact .braces v [] h4.1 .nil
        · exact h4.1
    · exact contents_braced subs h6
theorem contents_braced (ms : List Modifier) (h : AllPrintable ms) : Braced (contents ms) := by
  match ms, h with
  | [], _ => exact .nil
  | m :: ms, h =>
    have hn : PlainName m.name := by cases m; exact h.1.2.1
    rw [contents, List.cons_append]
    exact .char _ _ (by decide) ((braced_textOf hn (content_braced m h.1)).append
      (contents_braced ms h.2))
end

theorem content_head (m : Modifier) (h : Printable m) (hs : ' ' ∉ content m) :
    (content m).head? ≠ some '{' := by
  match m, h with
  | .mk d n raw v subs, h =>
    obtain ⟨h1, h2, h3, h4, h5, h6⟩ := h
    rw [content] at hs ⊢
    split
    · rename_i hr
      rw [if_pos hr] at hs
      exact h3.2 hs
    rename_i hr
    rw [if_neg hr] at hs
    split
    · simp
    rename_i hv
    rw [if_neg hv] at hs
    split
    · simp
    · rename_i hv0
      rw [if_neg hv0] at hs
      have hne := List.length_pos_iff.2 hv0
      split
      · rename_i hsp
        rw [if_pos hsp] at hs
        simp [hsp] at hs
      · rename_i hsp
        cases v with
        | nil => simp at hv0
        | cons x v =>
          have := h4.2 hsp
          simpa using this

theorem valueLoop_braced {c : Str} (h : Braced c) : ∀ (l : Nat) (r : Str),
    valueLoop true (l + 1) (c ++ r) =
      (c ++ (valueLoop true (l + 1) r).1, (valueLoop true (l + 1) r).2) := by
  induction h with
  | nil => simp
  | char x s hx _ ih =>
    intro l r
    simp at hx
    simp [valueLoop, hx, ih l r]
  | braces a s _ _ ih1 ih2 =>
    intro l r
    have h1 := ih1 (l + 1) ('}' :: (s ++ r))
    simp [valueLoop, h1, ih2 l r]

theorem valueLoop_word {c : Str} (h : ' ' ∉ c) (r : Str) (hr : r = [] ∨ r.head? = some ' ') :
    valueLoop false 0 (c ++ r) = (c, r, 0) := by
  induction c with
  | nil =>
    rcases hr with rfl | hr
    · rfl
    · cases r with
      | nil => simp at hr
      | cons x r => simp at hr; simp [valueLoop, hr]
  | cons x c ih =>
    simp at h
    simp [valueLoop, ih h.2, Ne.symm h.1]

theorem valueLoop_stop (q : Bool) (r : Str) (hr : r = [] ∨ r.head? = some ' ') :
    valueLoop q 0 r = ([], r, 0) := by
  rcases hr with rfl | hr
  · rfl
  · cases r with
    | nil => simp at hr
    | cons x r => simp at hr; simp [valueLoop, hr]

theorem popValue_braces {c : Str} (h : Braced c) (r : Str) (hr : r = [] ∨ r.head? = some ' ') :
    popValue (b!"{" ++ c ++ b!"}" ++ r) = some (c, r) := by
  have h1 := valueLoop_braced h 0 ('}' :: r)
  simp only [Nat.zero_add] at h1
  have h2 := valueLoop_stop true r hr
  unfold popValue
  have h3 : List.dropWhile (fun x => x == ' ') (b!"{" ++ c ++ b!"}" ++ r) = '{' :: (c ++ '}' :: r) := by
    simp
  rw [h3]
  simp [valueLoop, h1, h2]

theorem popValue_word {c : Str} (h0 : c ≠ []) (h : ' ' ∉ c) (h1 : c.head? ≠ some '{') (r : Str)
    (hr : r = [] ∨ r.head? = some ' ') : popValue (c ++ r) = some (c, r) := by
  cases c with
  | nil => simp at h0
  | cons x c =>
    simp at h1 h
    unfold popValue
    have h2 : List.dropWhile (fun x => x == ' ') (x :: c ++ r) = x :: (c ++ r) := by
      simp [Ne.symm h.1]
    rw [h2]
    have h3 := valueLoop_word (c := x :: c) (by simp [h]) r hr
    simp at h3
    have h4 : (x == '{') = false := by simp [h1]
    simp [h3, h4]

theorem takeWhile_name {n : Str} (hn : PlainName n) (r : Str)
    (hr : r = [] ∨ r.head? = some ' ' ∨ r.head? = some '=') :
    (n ++ r).takeWhile (fun c => decide (c ≠ ' ' ∧ c ≠ '=')) = n := by
  have h := hn.2
  clear hn
  induction n with
  | nil =>
    cases r with
    | nil => rfl
    | cons x r => simp at hr; rcases hr with rfl | rfl <;> rfl
  | cons x n ih =>
    have hx := h x (by simp)
    simp at hx
    rw [List.cons_append, List.takeWhile_cons]
    have : (decide (x ≠ ' ' ∧ x ≠ '=')) = true := by simp [hx]
    rw [if_pos this, ih fun c hc => h c (by simp [hc])]

theorem withDialects_plain {n : Str} (hn : PlainName n) (raw : Str) :
    withDialects n raw = .mk [] n raw [] [] := by
  unfold withDialects
  have : n.findIdx? (· == ':') = none := by
    rw [List.findIdx?_eq_none_iff]
    intro c hc
    have := hn.2 c hc
    simp at this
    simp [this]
  rw [this]

theorem popModifier_textOf {n c : Str} (hn : PlainName n) (hc : PlainValue c) (r : Str)
    (hr : r = [] ∨ r.head? = some ' ') :
    popModifier (textOf n c ++ r) = some (.mk [] n c [] [], r) := by
  obtain ⟨x, n', rfl⟩ : ∃ x n', n = x :: n' := by
    cases n with
    | nil => exact absurd rfl hn.1
    | cons x n' => exact ⟨x, n', rfl⟩
  have hx : x ≠ ' ' := by have := hn.2 x (by simp); simp_all
  have key : ∀ u : Str, (u = [] ∨ u.head? = some ' ' ∨ u.head? = some '=') →
      popModifier (x :: n' ++ u) = match u with
        | '=' :: r => if r.head? = some ' ' then some (.mk [] (x :: n') [] [] [], r)
          else match popValue r with
            | none => none
            | some (raw, r') => some (withDialects (x :: n') raw, r')
        | r => some (withDialects (x :: n') [], r) := by
    intro u hu
    unfold popModifier
    have h2 : List.dropWhile (fun x => x == ' ') (x :: n' ++ u) = x :: (n' ++ u) := by simp [hx]
    rw [h2]
    simp only
    have h3 := takeWhile_name hn u hu
    simp only [List.cons_append] at h3
    rw [h3]
    have h4 : (x :: (n' ++ u)).drop (x :: n').length = u := by simp
    rw [h4]
    rfl
  unfold textOf
  split
  · rename_i h0
    subst h0
    rw [key r (by grind)]
    rcases hr with rfl | hr
    · simp [withDialects_plain hn]
    · cases r with
      | nil => simp at hr
      | cons y r => simp at hr; subst hr; simp [withDialects_plain hn]
  split
  · have := key (b!"={" ++ c ++ b!"}" ++ r) (by simp)
    simp only [List.append_assoc] at this ⊢
    rw [this]
    have h5 := popValue_braces hc.1 r hr
    simp at h5
    simp [h5, withDialects_plain hn]
  · rename_i h0 hsp
    have := key (b!"=" ++ c ++ r) (by simp)
    simp only [List.append_assoc] at this ⊢
    rw [this]
    have h5 := popValue_word h0 hsp (hc.2 hsp) r hr
    have h6 : (c ++ r).head? ≠ some ' ' := by
      cases c with
      | nil => simp at h0
      | cons y c => simp at hsp ⊢; exact Ne.symm hsp.1
    simp at h6
    simp [h5, h6, withDialects_plain hn]
    exact fun h _ => h

theorem popModifier_space (s : Str) : popModifier (' ' :: s) = popModifier s := by
  unfold popModifier; simp

theorem newModifiers_step (s r : Str) (m : Modifier) (hs : s ≠ [])
    (h : popModifier s = some (m, r)) (hm : m.name ≠ []) :
    newModifiers s = (m :: (newModifiers r).1, (newModifiers r).2) := by
  rw [newModifiers_eq]
  rw [if_neg hs, h]
  simp [hm]

theorem contents_head (ms : List Modifier) : contents ms = [] ∨ (contents ms).head? = some ' ' := by
  cases ms <;> simp [contents]

theorem _root_.ModifierSpec.Printable.name {m : Modifier} (h : Printable m) : PlainName m.name := by
  cases m; exact h.2.1

theorem newModifiers_contents (ms : List Modifier) (h : AllPrintable ms) :
    newModifiers (contents ms) = (ms.map flat, true) := by
  induction ms with
  | nil => rw [contents, newModifiers_eq]; simp
  | cons m ms ih =>
    have hm : popModifier (contents (m :: ms)) = some (flat m, contents ms) := by
      rw [contents, List.cons_append, popModifier_space]
      exact popModifier_textOf h.1.name ⟨content_braced m h.1, content_head m h.1⟩ _ (contents_head ms)
    rw [newModifiers_step _ _ _ (by simp [contents]) hm h.1.name.1, ih h.2]
    rfl

/-- **C30, partial**: parsing the text printed for printable modifiers gives the same names and
values.  Missing: modifiers with dialects, names and values with the characters used by the
syntax, and a first modifier whose text is a single byte; see `modifiers_roundtrip_refuted`. -/
theorem modifiers_roundtrip_partial (ms : List Modifier) (h : AllPrintable ms)
    (h1 : ∀ m ∈ ms.head?, ms.length ≤ 1 ∨ 1 < (textOf m.name (content m)).length) :
    newModifiers (printModifiers ms) = (ms.map flat, true) := by
  unfold printModifiers
  cases ms with
  | nil => rw [writeBufs, newModifiers_eq]; simp
  | cons m ms =>
    have ht := textOf_last (c := content m) h.1.name
    have hw : writeBufs [] (m :: ms) = textOf m.name (content m) ++ contents ms := by
      rw [writeBufs, writeBuf_eq m h.1]
      simp only [List.length_nil, Nat.not_lt_zero, gt_iff_lt, false_and, if_false, List.nil_append]
      rcases h1 m (by simp) with hl | hl
      · have : ms = [] := by simpa using hl
        simp [this, writeBufs, contents]
      · exact writeBufs_eq ms h.2 _ hl ht.1
    have hm : popModifier (writeBufs [] (m :: ms)) = some (flat m, contents ms) := by
      rw [hw]
      exact popModifier_textOf h.1.name ⟨content_braced m h.1, content_head m h.1⟩ _ (contents_head ms)
    rw [newModifiers_step _ _ _ (by rw [hw]; simp [ht.2]) hm h.1.name.1,
      newModifiers_contents ms h.2]
    rfl

/-- **C30**: modifiers with names and raw values come back as they were. -/
theorem modifiers_roundtrip_raw_partial (nvs : List (Str × Str))
    (h : ∀ x ∈ nvs, PlainName x.1 ∧ PlainValue x.2)
    (h1 : ∀ x ∈ nvs.head?, nvs.length ≤ 1 ∨ 1 < (textOf x.1 x.2).length) :
    let ms := nvs.map fun x => Modifier.mk [] x.1 x.2 [] []
    newModifiers (printModifiers ms) = (ms, true) := by
  intro ms
  have hc : ∀ n r : Str, content (.mk [] n r [] []) = r := by
    intro n r; simp [content]
  have hp : AllPrintable ms := by
    have : ∀ l : List (Str × Str), (∀ x ∈ l, PlainName x.1 ∧ PlainValue x.2) →
        AllPrintable (l.map fun x => Modifier.mk [] x.1 x.2 [] []) := by
      intro l hl
      induction l with
      | nil => exact trivial
      | cons x l ih =>
        have hx := hl x (by simp)
        exact ⟨⟨rfl, hx.1, hx.2, ⟨.nil, by simp⟩, by simp, trivial⟩,
          ih fun y hy => hl y (by simp [hy])⟩
    exact this nvs h
  have := modifiers_roundtrip_partial ms hp (by
    intro m hm
    cases nvs with
    | nil => simp [ms] at hm
    | cons x l =>
      simp [ms] at hm
      subst hm
      have := h1 x (by simp)
      simpa [ms, Modifier.name, hc] using this)
  rw [this]
  have hf : ms.map flat = ms := by
    simp only [ms, List.map_map]
    apply List.map_congr_left
    intro x _
    simp [flat, hc, Modifier.name]
  rw [hf]

/-- **C30**: reading the raw value written for a value with submodifiers gives the value (a missing
value is written as a dot) and the submodifiers. -/
theorem parseRawValue_content (m : Modifier) (h : Printable m) (hr : m.raw = [])
    (hne : m.value ≠ [] ∨ m.subs ≠ []) :
    parseRawValue (flat m) = (.mk [] m.name (content m)
      (if m.value = [] then b!"." else m.value) (m.subs.map flat), true) := by
  match m, h with
  | .mk d n raw v subs, h =>
    obtain ⟨h1, h2, h3, h4, h5, h6⟩ := h
    simp only [Modifier.raw, Modifier.value, Modifier.subs, Modifier.name] at *
    subst hr
    have hv : ¬ (v = [] ∧ subs = []) := by grind
    have hc : content (.mk d n [] v subs) =
        (if v = [] then b!"." else if ' ' ∈ v then b!"{" ++ v ++ b!"}" else v) ++ contents subs := by
      rw [content]; simp only [ne_eq, not_true_eq_false, if_false, if_neg hv]
    have hcne : content (.mk d n [] v subs) ≠ [] := by
      rw [hc]; split
      · simp
      · split <;> simp_all
    have hp : popValue (content (.mk d n [] v subs)) =
        some (if v = [] then b!"." else v, contents subs) := by
      rw [hc]
      have hh := contents_head subs
      split
      · exact popValue_word (by simp) (by decide) (by decide) _ hh
      · rename_i hv0
        split
        · exact popValue_braces h4.1 _ hh
        · rename_i hsp
          exact popValue_word hv0 hsp (h4.2 hsp) _ hh
    rw [flat, parseRawValue, if_neg hcne, hp]
    simp only [newModifiers_contents subs h6, Modifier.name]
    rfl

/-- Reading the raw value a second time changes nothing, whatever the modifier. -/
theorem parseRawValue_idem (m : Modifier) : parseRawValue (parseRawValue m).1 = parseRawValue m := by
  cases m with
  | mk d n raw v subs =>
    by_cases hr : raw = []
    · simp [parseRawValue, hr]
    · cases hp : popValue raw with
      | none => simp [parseRawValue, hr, hp]
      | some p => simp [parseRawValue, hr, hp]

/-- Modifiers that meet the hypotheses: `notnull references={a.b onupdate=cascade} default={x y}` -/
example : AllPrintable [.mk [] b!"notnull" [] [] [],
    .mk [] b!"references" [] b!"a.b" [.mk [] b!"onupdate" b!"cascade" [] []],
    .mk [] b!"default" b!"x y" [] []] ∧
    printModifiers [.mk [] b!"notnull" [] [] [],
      .mk [] b!"references" [] b!"a.b" [.mk [] b!"onupdate" b!"cascade" [] []],
      .mk [] b!"default" b!"x y" [] []] =
    b!"notnull references={a.b onupdate=cascade} default={x y}" := by
  have hw : ∀ w : Str, (∀ c ∈ w, c ∉ ['{', '}']) → PlainValue w := by
    intro w h
    refine ⟨Braced.plain h, fun _ h1 => ?_⟩
    have := h '{' (List.mem_of_head? h1)
    simp at this
  refine ⟨⟨⟨rfl, ⟨by decide, by decide⟩, hw _ (by decide), hw _ (by decide), by decide, trivial⟩,
    ⟨rfl, ⟨by decide, by decide⟩, hw _ (by decide), hw _ (by decide), by simp,
      ⟨⟨rfl, ⟨by decide, by decide⟩, hw _ (by decide), hw _ (by decide), by simp, trivial⟩, trivial⟩⟩,
    ⟨rfl, ⟨by decide, by decide⟩, hw _ (by decide), hw _ (by decide), by simp, trivial⟩, trivial⟩, ?_⟩
  simp [printModifiers, writeBufs, writeBuf]

/-- **C30, refuted** in general, in three ways: dialects are not written; the space after a first
modifier of one byte is missing (`a` and `b` are printed as `ab`); a value that starts with a brace
and has no space is read without its braces. -/
theorem modifiers_roundtrip_refuted :
    (newModifiers (printModifiers [.mk [b!"mysql"] b!"a" [] [] []])).1 = [.mk [] b!"a" [] [] []] ∧
    (newModifiers (printModifiers [.mk [] b!"a" [] [] [], .mk [] b!"b" [] [] []])).1 =
      [.mk [] b!"ab" [] [] []] ∧
    (newModifiers (printModifiers [.mk [] b!"default" b!"{x}" [] []])).1 =
      [.mk [] b!"default" b!"x" [] []] := by
  have h0 : newModifiers [] = ([], true) := by rw [newModifiers_eq]; simp
  have h1 : ∀ (s : Str) (m : Modifier), s ≠ [] → popModifier s = some (m, []) → m.name ≠ [] →
      (newModifiers s).1 = [m] := by
    intro s m hs h hm
    rw [newModifiers_step s [] m hs h hm, h0]
  refine ⟨h1 _ _ ?_ rfl ?_, h1 _ _ ?_ rfl ?_, h1 _ _ ?_ rfl ?_⟩ <;> decide

/-- A modifier applies to a dialect iff it names none or names this one. -/
theorem excludesDialect_iff (m : Modifier) (d : Str) :
    excludesDialect m d = false ↔ m.dialects = [] ∨ d ∈ m.dialects := by
  unfold excludesDialect
  split
  · simp_all
  · simp_all

example : excludesDialect (.mk [b!"mysql", b!"sqlite"] b!"a" [] [] []) b!"sqlite" = false ∧
    excludesDialect (.mk [b!"mysql"] b!"a" [] [] []) b!"sqlite" = true := by decide

end Sqddl
