import Verif.Spec.Subset

/-!
# The templates of subset queries: C64
-/

namespace Sqddl.Subset
open Go

theorem indexByte_append (c : Char) (a b : Str) (h : c ∉ a) :
    indexByte c (a ++ c :: b) = some a.length := by
  induction a with
  | nil => simp [indexByte]
  | cons x a ih =>
    have hx : x ≠ c := fun e => h (by simp [e])
    rw [List.cons_append, indexByte, if_neg hx, ih fun hm => h (List.mem_cons_of_mem _ hm)]
    rfl

theorem indexByte_none (c : Char) (a : Str) (h : c ∉ a) : indexByte c a = none := by
  induction a with
  | nil => rfl
  | cons x a ih =>
    have hx : x ≠ c := fun e => h (by simp [e])
    rw [indexByte, if_neg hx, ih fun hm => h (List.mem_cons_of_mem _ hm)]
    rfl

/-- One round of the search: text without braces, then a placeholder. -/
theorem placeholders_step (n off : Nat) (a name b : Str) (star table : Option (Nat × Nat))
    (ha : '{' ∉ a) (hn : '}' ∉ name) (hh : name.head? ≠ some '{') :
    placeholders (n + 1) off (a ++ '{' :: (name ++ '}' :: b)) star table =
      if name = b!"*" then
        if positive star then .err
        else placeholders n (off + a.length + name.length + 2) b
          (some (off + a.length, off + a.length + name.length + 2)) table
      else if positive table then .err
      else placeholders n (off + a.length + name.length + 2) b star
        (some (off + a.length, off + a.length + name.length + 2)) := by
  have hd : (a ++ '{' :: (name ++ '}' :: b)).drop a.length = '{' :: (name ++ '}' :: b) := by simp
  have hd1 : (a ++ '{' :: (name ++ '}' :: b)).drop (a.length + 1) = name ++ '}' :: b := by
    rw [← List.drop_drop, hd]; rfl
  have hj : indexByte '}' ('{' :: (name ++ '}' :: b)) = some (name.length + 1) := by
    have := indexByte_append '}' ('{' :: name) b (by simpa using hn)
    simpa using this
  have hd2 : (a ++ '{' :: (name ++ '}' :: b)).drop (a.length + (name.length + 1) + 1) = b := by
    rw [Nat.add_assoc, ← List.drop_drop, hd]
    have : ('{' :: (name ++ '}' :: b)) = ('{' :: (name ++ ['}'])) ++ b := by simp
    rw [this]
    exact List.drop_left' (by simp)
  have ht : ('{' :: (name ++ '}' :: b)).take (name.length + 1 + 1) = '{' :: (name ++ ['}']) := by
    have : ('{' :: (name ++ '}' :: b)) = ('{' :: (name ++ ['}'])) ++ b := by simp
    rw [this]
    exact List.take_left' (by simp)
  have hiff : ('{' :: (name ++ ['}']) = b!"{*}") ↔ name = b!"*" := by
    constructor
    · intro h
      have h1 : name ++ ['}'] = b!"*" ++ ['}'] := (List.cons.inj h).2
      exact List.append_cancel_right h1
    · rintro rfl; rfl
  rw [placeholders, indexByte_append '{' a _ ha]
  simp only [hd1, hd]
  have hoff : off + a.length + (name.length + 1) + 1 = off + a.length + name.length + 2 := by omega
  cases hnm : name ++ '}' :: b with
  | nil => simp at hnm
  | cons c r =>
    have hc : c ≠ '{' := by
      cases name with
      | nil => simp only [List.nil_append] at hnm; cases hnm; decide
      | cons x name =>
        cases hnm
        simpa using hh
    rw [hnm] at hj ht hd2
    simp only [if_neg hc, hj, ht, hoff]
    simp only [hiff, hd2]

/-- Doubled braces are passed over. -/
theorem placeholders_skip (n off : Nat) (a b : Str) (star table : Option (Nat × Nat))
    (ha : '{' ∉ a) : placeholders (n + 1) off (a ++ '{' :: '{' :: b) star table =
      placeholders n (off + a.length + 2) b star table := by
  have hd1 : (a ++ '{' :: '{' :: b).drop (a.length + 1) = '{' :: b := by
    rw [← List.drop_drop, List.drop_left' rfl]; rfl
  rw [placeholders, indexByte_append '{' a _ ha]
  simp only [hd1, if_true]

theorem text_step {s : Str} (hs : SubsetSpec.Text s) (name b : Str) (hn : '}' ∉ name)
    (hh : name.head? ≠ some '{') :
    ∃ k, k ≤ s.length ∧ ∀ n off star table,
      placeholders (n + 1 + k) off (s ++ '{' :: (name ++ '}' :: b)) star table =
      if name = b!"*" then
        if positive star then .err
        else placeholders n (off + s.length + name.length + 2) b
          (some (off + s.length, off + s.length + name.length + 2)) table
      else if positive table then .err
      else placeholders n (off + s.length + name.length + 2) b star
        (some (off + s.length, off + s.length + name.length + 2)) := by
  induction hs with
  | plain a ha => exact ⟨0, Nat.zero_le _, fun n off star table =>
      placeholders_step n off a name b star table ha hn hh⟩
  | escaped a s ha _ ih =>
    obtain ⟨k, hk, ih⟩ := ih
    refine ⟨k + 1, by simp; omega, fun n off star table => ?_⟩
    rw [List.append_assoc, List.cons_append, List.cons_append, ← Nat.add_assoc,
      placeholders_skip _ _ _ _ _ _ ha, ih]
    have : off + a.length + 2 + s.length = off + (a ++ '{' :: '{' :: s).length := by simp; omega
    rw [this]

theorem text_end {s : Str} (hs : SubsetSpec.Text s) :
    ∃ k, k ≤ s.length ∧ ∀ n off star table,
      placeholders (n + 1 + k) off s star table = .ok star table := by
  induction hs with
  | plain a ha => exact ⟨0, Nat.zero_le _, fun n off star table => by
      rw [Nat.add_zero, placeholders, indexByte_none _ _ ha]⟩
  | escaped a s ha _ ih =>
    obtain ⟨k, hk, ih⟩ := ih
    refine ⟨k + 1, by simp; omega, fun n off star table => ?_⟩
    rw [← Nat.add_assoc, placeholders_skip _ _ _ _ _ _ ha, ih]

/-- C64: the placeholders of a template are replaced, everything else is kept.  In `pre`, `mid` and
`post` opening braces are doubled (and stay doubled). -/
theorem template_filled (resolve : Str → Option (Str × Str)) (pre mid name post cols table : Str)
    (h1 : SubsetSpec.Text pre) (h2 : SubsetSpec.Text mid) (h3 : SubsetSpec.Text post)
    (h4 : '}' ∉ name)
    (h5 : name.head? ≠ some '{') (h6 : name ≠ b!"*") (hr : resolve name = some (cols, table)) :
    fillTemplate resolve (pre ++ b!"{*}" ++ mid ++ b!"{" ++ name ++ b!"}" ++ post) =
      .ok (pre ++ cols ++ mid ++ table ++ post) := by
  have hq : pre ++ b!"{*}" ++ mid ++ b!"{" ++ name ++ b!"}" ++ post =
      pre ++ '{' :: (b!"*" ++ '}' :: (mid ++ '{' :: (name ++ '}' :: post))) := by simp
  rw [hq]
  obtain ⟨k3, hk3, e3⟩ := text_end h3
  obtain ⟨k2, hk2, e2⟩ := text_step h2 name post h4 h5
  obtain ⟨k1, hk1, e1⟩ := text_step h1 b!"*" (mid ++ '{' :: (name ++ '}' :: post)) (by decide)
    (by decide)
  have hlen : ∃ m, (pre ++ '{' :: (b!"*" ++ '}' :: (mid ++ '{' :: (name ++ '}' :: post)))).length =
      m + 1 + k3 + 1 + k2 + 1 + k1 :=
    ⟨(pre.length - k1) + (mid.length - k2) + (post.length - k3) + name.length + 2, by
      simp; omega⟩
  obtain ⟨m, hm⟩ := hlen
  unfold fillTemplate
  rw [hm, e1, if_pos rfl, if_neg (show ¬ positive none = true by decide), e2, if_neg h6,
    if_neg (show ¬ positive none = true by decide), e3]
  simp only [Option.elim_some, Nat.zero_add, show (b!"*").length = 1 from rfl]
  have e1 : (pre ++ '{' :: (b!"*" ++ '}' :: (mid ++ '{' :: (name ++ '}' :: post)))) =
      (pre ++ b!"{*}" ++ mid ++ ['{']) ++ name ++ ('}' :: post) := by simp
  have e2 : (pre ++ '{' :: (b!"*" ++ '}' :: (mid ++ '{' :: (name ++ '}' :: post)))) =
      (pre ++ b!"{*}") ++ mid ++ ('{' :: name ++ '}' :: post) := by simp
  have e3 : (pre ++ '{' :: (b!"*" ++ '}' :: (mid ++ '{' :: (name ++ '}' :: post)))) =
      (pre ++ b!"{*}" ++ mid ++ ['{'] ++ name ++ ['}']) ++ post := by simp
  have hname : (List.take (pre.length + 1 + 2 + mid.length + name.length + 2 - 1)
      (pre ++ '{' :: (b!"*" ++ '}' :: (mid ++ '{' :: (name ++ '}' :: post))))).drop
      (pre.length + 1 + 2 + mid.length + 1) = name := by
    rw [e1, List.take_left' (by simp; omega), List.drop_left' (by simp; omega)]
  have hmid : (List.take (pre.length + 1 + 2 + mid.length)
      (pre ++ '{' :: (b!"*" ++ '}' :: (mid ++ '{' :: (name ++ '}' :: post))))).drop
      (pre.length + 1 + 2) = mid := by
    rw [e2, List.take_left' (by simp; omega), List.drop_left' (by simp)]
  have hpost : List.drop (pre.length + 1 + 2 + mid.length + name.length + 2)
      (pre ++ '{' :: (b!"*" ++ '}' :: (mid ++ '{' :: (name ++ '}' :: post)))) = post := by
    rw [e3, List.drop_left' (by simp; omega)]
  rw [hname, hr]
  simp only [Option.elim_some]
  rw [if_neg (by omega), hmid, hpost, List.take_left' rfl]

/-- An example. -/
example : fillTemplate (fun n => if n = b!"actor" then some (b!"\"actor\".\"id\"", b!"\"actor\"") else none)
    b!"SELECT {*} FROM {actor} LIMIT 3" = .ok b!"SELECT \"actor\".\"id\" FROM \"actor\" LIMIT 3" := by
  decide +kernel

/-- An example with doubled braces. -/
example : fillTemplate (fun n => if n = b!"t" then some (b!"t.id", b!"t") else none)
    (b!"SELECT {*} FROM {t} WHERE a = '{{x}'") = .ok b!"SELECT t.id FROM t WHERE a = '{{x}'" :=
  template_filled _ b!"SELECT " b!" FROM " b!"t" b!" WHERE a = '{{x}'" b!"t.id" b!"t"
    (.plain _ (by decide)) (.plain _ (by decide))
    (.escaped b!" WHERE a = '" b!"x}'" (by decide) (.plain _ (by decide))) (by decide) (by decide)
    (by decide) (if_pos rfl)

/-- A template without `{*}`, without a table, with the table before `{*}`, or with a brace at its end
makes `Subset` crash instead of giving an error. -/
theorem template_panic_refuted : ∀ q ∈ [b!"SELECT id FROM {actor}", b!"SELECT {*} FROM actor",
    b!"SELECT id IN {actor}, {*}", b!"SELECT {*} FROM {actor} {"],
    ¬ ∀ resolve, fillTemplate resolve q ≠ .panic := by
  intro q hq h
  have h2 : ∀ q ∈ [b!"SELECT id FROM {actor}", b!"SELECT {*} FROM actor",
    b!"SELECT id IN {actor}, {*}", b!"SELECT {*} FROM {actor} {"],
    fillTemplate (fun _ => some ([], [])) q = .panic := by decide +kernel
  exact h _ (h2 q hq)

/-- So does every query without placeholders. -/
theorem template_plain_panic (resolve : Str → Option (Str × Str)) (q : Str) (h : '{' ∉ q) :
    fillTemplate resolve q = .panic := by
  unfold fillTemplate
  have : placeholders q.length 0 q none none = .ok none none := by
    cases q with
    | nil => rfl
    | cons c q => rw [List.length_cons, placeholders, indexByte_none _ _ h]
  rw [this]
  rfl

example : fillTemplate (fun _ => none) b!"SELECT id FROM actor" = .panic :=
  template_plain_panic _ _ (by decide +kernel)

end Sqddl.Subset
