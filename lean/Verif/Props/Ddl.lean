import Verif.Model.Ddl
import Verif.Spec.Ddl

/-!
# Argument lists (C24), generated names (C25, C26), brackets, versions (C29)
-/

namespace Sqddl
open DdlSpec

/-! ## splitArgs -/

theorem splitLoop_join (s : Str) : Go.join b!"," (splitLoop s) = s ∧ splitLoop s ≠ [] := by
  fun_induction splitLoop s with
  | case1 s h => simp [Go.join]
  | case2 s p q h ih =>
    have h1 := splitFirst_eq h
    refine ⟨?_, by simp⟩
    generalize hl : splitLoop q = l at ih ⊢
    cases l with
    | nil => simp at ih
    | cons x l => simp [Go.join, ih.1, h1]

/-- **C24**: the pieces of an argument list, joined by commas, are the argument list. -/
theorem splitArgs_loses_nothing (s : Str) : Go.join b!"," (splitArgs s) = s := by
  unfold splitArgs
  split
  · simp_all [Go.join]
  · exact (splitLoop_join s).1

example : splitArgs b!"a, 'x,''y', f(b, c), ARRAY[1,2]" =
    [b!"a", b!" 'x,''y'", b!" f(b, c)", b!" ARRAY[1,2]"] := by decide +kernel

theorem readQuoted_split {q t v s} (h : SqlSpec.readQuoted q t = some (v, s)) :
    ∃ body, t = body ++ s ∧ ∀ x ∈ body, x ∈ v ∨ x = q := by
  fun_induction SqlSpec.readQuoted q t generalizing v s with
  | case1 => simp at h
  | case2 => simp at h; exact ⟨[q], by simp [h], by simp⟩
  | case3 => simp at h
  | case4 r ih =>
    obtain ⟨⟨v', s'⟩, h1, h2⟩ := Option.map_eq_some_iff.1 h
    obtain ⟨body, h3, h4⟩ := ih h1
    simp at h2
    refine ⟨q :: q :: body, by simp [h3, h2.2], ?_⟩
    intro x hx
    have := h4 x
    grind
  | case5 d r hd => exact ⟨[q], by simp_all, by simp⟩
  | case6 c d r hc ih =>
    obtain ⟨⟨v', s'⟩, h1, h2⟩ := Option.map_eq_some_iff.1 h
    obtain ⟨body, h3, h4⟩ := ih h1
    simp at h2
    refine ⟨c :: body, by simp [h3, h2.2], ?_⟩
    intro x hx
    have := h4 x
    grind

/-- a string literal is passed over as a whole -/
theorem splitFirst_string {t v s} (h : SqlSpec.readQuoted '\'' t = some (v, s)) (u : Str)
    (hu : u.head? ≠ some '\'') :
    ∃ body, t = body ++ s ∧ splitFirst 0 0 true (t ++ u) =
      (splitFirst 0 0 false (s ++ u)).map fun (p, q) => (body ++ p, q) := by
  fun_induction SqlSpec.readQuoted '\'' t generalizing v s with
  | case1 => simp at h
  | case2 =>
    simp at h
    obtain ⟨rfl, rfl⟩ := h
    refine ⟨['\''], by simp, ?_⟩
    cases u with
    | nil => simp [splitFirst]
    | cons x u =>
      simp at hu
      rw [splitFirst.eq_def]
      simp [hu]
  | case3 => simp at h
  | case4 r ih =>
    obtain ⟨⟨v', s'⟩, h1, h2⟩ := Option.map_eq_some_iff.1 h
    obtain ⟨body, h3, h4⟩ := ih h1
    simp at h2
    refine ⟨'\'' :: '\'' :: body, by simp [h3, h2.2], ?_⟩
    rw [splitFirst.eq_def]
    simp [h4, h2.2]
    congr
  | case5 d r hd =>
    simp at h
    refine ⟨['\''], by simp [h.2], ?_⟩
    rw [← h.2, splitFirst.eq_def]
    simp [hd]
  | case6 c d r hc ih =>
    obtain ⟨⟨v', s'⟩, h1, h2⟩ := Option.map_eq_some_iff.1 h
    obtain ⟨body, h3, h4⟩ := ih h1
    simp at h2
    refine ⟨c :: body, by simp [h3, h2.2], ?_⟩
    rw [splitFirst.eq_def]
    simp at h4
    simp [hc, h4, h2.2]
    congr

def noBr (v : Str) : Prop := ∀ c ∈ v, c ∉ ['(', ')', '[', ']']

theorem splitFirst_br_plain (body u : Str) (n : Nat) (h : ∀ x ∈ body, x ≠ '(' ∧ x ≠ ')') :
    splitFirst 0 (n + 1) false (body ++ u) =
      (splitFirst 0 (n + 1) false u).map fun (p, q) => (body ++ p, q) := by
  induction body with
  | nil => simp
  | cons c body ih =>
    have h1 := h c (by simp)
    rw [List.cons_append, splitFirst.eq_def]
    simp [h1.1, h1.2, ih (fun x hx => h x (by simp [hx]))]
    congr

theorem splitFirst_arr_plain (body u : Str) (n : Nat) (h : ∀ x ∈ body, x ≠ '[' ∧ x ≠ ']') :
    splitFirst (n + 1) 0 false (body ++ u) =
      (splitFirst (n + 1) 0 false u).map fun (p, q) => (body ++ p, q) := by
  induction body with
  | nil => simp
  | cons c body ih =>
    have h1 := h c (by simp)
    rw [List.cons_append, splitFirst.eq_def]
    simp [h1.1, h1.2, ih (fun x hx => h x (by simp [hx]))]
    congr

/-- text inside of parentheses is passed over -/
theorem splitFirst_br {b a} (h : ArgText noBr b a) (hb : b = true) :
    ∀ (n : Nat) (u : Str), splitFirst 0 (n + 1) false (a ++ u) =
      (splitFirst 0 (n + 1) false u).map fun (p, q) => (a ++ p, q) := by
  induction h with
  | nil => simp
  | comma s _ ih =>
    intro n u
    have := splitFirst_br_plain b!"," (s ++ u) n (by simp)
    simp at this
    simp [this, ih hb n u]; congr
  | char b x s hx _ ih =>
    intro n u
    have := splitFirst_br_plain [x] (s ++ u) n (by simp_all)
    simp at this
    simp [this, ih hb n u]; congr
  | str b t v s ht hv _ ih =>
    intro n u
    obtain ⟨body, h1, h2⟩ := readQuoted_split ht
    have h3 : ∀ x ∈ '\'' :: body, x ≠ '(' ∧ x ≠ ')' := by
      have h4 := hv hb
      unfold noBr at h4
      intro x hx
      rcases List.mem_cons.1 hx with h5 | h5
      · simp [h5]
      · rcases h2 x h5 with h6 | h6
        · have := h4 x h6; simp_all
        · simp [h6]
    have := splitFirst_br_plain ('\'' :: body) (s ++ u) n h3
    simp at this
    simp [h1, this, ih hb n u]; congr
  | paren b a s _ _ ih1 ih2 =>
    intro n u
    rw [List.append_assoc, List.cons_append, splitFirst.eq_def]
    simp [ih1 rfl (n + 1) (')' :: (s ++ u))]
    rw [splitFirst.eq_def]
    simp [ih2 hb n u]; congr
  | array b a s _ _ ih1 ih2 =>
    intro n u
    have h1 := splitFirst_br_plain b!"[" (a ++ ']' :: (s ++ u)) n (by simp)
    have h2 := splitFirst_br_plain b!"]" (s ++ u) n (by simp)
    simp at h1 h2
    simp [h1, ih1 rfl, h2, ih2 hb n u]; congr

/-- text inside of array brackets is passed over -/
theorem splitFirst_arr {b a} (h : ArgText noBr b a) (hb : b = true) :
    ∀ (n : Nat) (u : Str), splitFirst (n + 1) 0 false (a ++ u) =
      (splitFirst (n + 1) 0 false u).map fun (p, q) => (a ++ p, q) := by
  induction h with
  | nil => simp
  | comma s _ ih =>
    intro n u
    have := splitFirst_arr_plain b!"," (s ++ u) n (by simp)
    simp at this
    simp [this, ih hb n u]; congr
  | char b x s hx _ ih =>
    intro n u
    have := splitFirst_arr_plain [x] (s ++ u) n (by simp_all)
    simp at this
    simp [this, ih hb n u]; congr
  | str b t v s ht hv _ ih =>
    intro n u
    obtain ⟨body, h1, h2⟩ := readQuoted_split ht
    have h3 : ∀ x ∈ '\'' :: body, x ≠ '[' ∧ x ≠ ']' := by
      have h4 := hv hb
      unfold noBr at h4
      intro x hx
      rcases List.mem_cons.1 hx with h5 | h5
      · simp [h5]
      · rcases h2 x h5 with h6 | h6
        · have := h4 x h6; simp_all
        · simp [h6]
    have := splitFirst_arr_plain ('\'' :: body) (s ++ u) n h3
    simp at this
    simp [h1, this, ih hb n u]; congr
  | array b a s _ _ ih1 ih2 =>
    intro n u
    rw [List.append_assoc, List.cons_append, splitFirst.eq_def]
    simp [ih1 rfl (n + 1) (']' :: (s ++ u))]
    rw [splitFirst.eq_def]
    simp [ih2 hb n u]; congr
  | paren b a s _ _ ih1 ih2 =>
    intro n u
    have h1 := splitFirst_arr_plain b!"(" (a ++ ')' :: (s ++ u)) n (by simp)
    have h2 := splitFirst_arr_plain b!")" (s ++ u) n (by simp)
    simp at h1 h2
    simp [h1, ih1 rfl, h2, ih2 hb n u]; congr

theorem splitFirst_arg {b a} (h : ArgText noBr b a) (hb : b = false) (u : Str)
    (hu : u.head? ≠ some '\'') :
    splitFirst 0 0 false (a ++ u) =
      (splitFirst 0 0 false u).map fun (p, q) => (a ++ p, q) := by
  induction h with
  | nil => simp
  | comma s _ ih => simp at hb
  | char b x s hx _ ih =>
    simp at hx
    rw [List.cons_append, splitFirst.eq_def]
    simp [hx, ih hb]; congr
  | str b t v s ht hv _ ih =>
    obtain ⟨body, h1, h2⟩ := splitFirst_string ht u hu
    rw [List.cons_append, splitFirst.eq_def]
    simp [h2, ih hb]; subst h1; congr; funext x; simp
  | paren b a s h1 _ ih1 ih2 =>
    rw [List.append_assoc, List.cons_append, splitFirst.eq_def]
    have := splitFirst_br h1 rfl 0 (')' :: (s ++ u))
    simp at this
    simp [this]
    rw [splitFirst.eq_def]
    simp [ih2 hb]; congr
  | array b a s h1 _ ih1 ih2 =>
    rw [List.append_assoc, List.cons_append, splitFirst.eq_def]
    have := splitFirst_arr h1 rfl 0 (']' :: (s ++ u))
    simp at this
    simp [this]
    rw [splitFirst.eq_def]
    simp [ih2 hb]; congr

theorem splitLoop_args (args : List Str) (hne : args ≠ []) (h : ∀ a ∈ args, SimpleArg a) :
    splitLoop (Go.join b!"," args) = args := by
  induction args with
  | nil => simp at hne
  | cons a args ih =>
    have ha : ArgText noBr false a := h a (by simp)
    cases args with
    | nil =>
      simp only [Go.join]
      have := splitFirst_arg ha rfl [] (by simp)
      simp [splitFirst] at this
      rw [splitLoop]
      split
      · rfl
      · simp_all
    | cons b args =>
      have h1 := splitFirst_arg ha rfl (',' :: Go.join b!"," (b :: args)) (by simp)
      rw [show splitFirst 0 0 false (',' :: Go.join b!"," (b :: args)) =
        some ([], Go.join b!"," (b :: args)) by rw [splitFirst.eq_def]; simp] at h1
      simp at h1
      have h2 := ih (by simp) (fun x hx => h x (by simp [hx]))
      rw [Go.join, splitLoop]
      simp only [List.append_assoc, List.cons_append, List.nil_append]
      split
      · simp_all
      · simp_all

/-- **C24, partial**: splitting an argument list gives back its arguments: a comma is a separator
iff it is outside of string literals, parentheses and array brackets.  Missing: string literals
inside of brackets that contain a bracket, see `splitArgs_args_refuted`.  (The list that consists
of one empty argument is the empty text, for which the Go code returns no arguments.) -/
theorem splitArgs_args_partial (args : List Str) (hne : args ≠ [[]])
    (h : ∀ a ∈ args, SimpleArg a) : splitArgs (Go.join b!"," args) = args := by
  unfold splitArgs
  split
  · rename_i h1
    match args with
    | [] => rfl
    | [a] => simp [Go.join] at h1; simp [h1] at hne
    | a :: b :: r => simp [Go.join] at h1
  · rename_i h1
    apply splitLoop_args _ _ h
    intro h2; simp [h2, Go.join] at h1

/-- The arguments `f(x,'a,b')` and `'c,(d'` meet the hypothesis. -/
example : SimpleArg b!"f(x,'a,b')" ∧ SimpleArg b!"'c,(d'" := by
  constructor
  · refine .char _ 'f' _ (by decide) (.paren _ b!"x,'a,b'" [] ?_ (.nil _))
    refine .char _ 'x' _ (by decide) (.comma _ (.str _ b!"a,b'" b!"a,b" [] ?_ ?_ (.nil _)))
    · decide +kernel
    · intro _; decide
  · exact .str _ b!"c,(d'" b!"c,(d" [] (by decide +kernel) (by simp) (.nil _)

/-- **C24, refuted** in general: in `f('('),b` the comma is outside of strings and brackets, but
the parenthesis in the string is counted and the list is not split. -/
theorem splitArgs_args_refuted : ¬ ∀ args : List Str, args ≠ [[]] → (∀ a ∈ args, Arg a) →
    splitArgs (Go.join b!"," args) = args := by
  intro h
  have := h [b!"f('(')", b!"b"] (by simp) (by
    intro a ha
    simp at ha
    rcases ha with rfl | rfl
    · refine .char _ 'f' _ (by decide) (.paren _ b!"'('" [] ?_ (.nil _))
      exact .str _ b!"('" b!"(" [] (by decide +kernel) (by simp) (.nil _)
    · exact .char _ 'b' _ (by decide) (.nil _))
  revert this
  decide +kernel

/-! ## GenerateName -/

theorem nameSuffix_length (t : NameType) : (nameSuffix t).length ≤ 6 := by
  cases t <;> decide

theorem space_notin_underscored (s : Str) : ' ' ∉ underscored s := by
  simp [underscored]
  intro a _
  split <;> simp_all

theorem space_notin_namePrefix (table : Str) (columns : List Str) :
    ' ' ∉ namePrefix table columns := by
  simp [namePrefix, space_notin_underscored]

/-- **C25**: a generated name has at most 63 bytes. -/
theorem generateName_length (t : NameType) (table : Str) (columns : List Str) :
    (generateName t table columns).length ≤ 63 := by
  have := nameSuffix_length t
  unfold generateName
  simp only
  generalize namePrefix table columns = p
  split <;> simp <;> omega

/-- **C25**: a generated name contains no space. -/
theorem generateName_no_space (t : NameType) (table : Str) (columns : List Str) :
    ' ' ∉ generateName t table columns := by
  have h1 := space_notin_namePrefix table columns
  have h2 : ' ' ∉ nameSuffix t := by cases t <;> decide
  unfold generateName
  simp only
  split
  · simp only [List.mem_append, not_or]
    exact ⟨fun h => h1 (List.mem_of_mem_take h), h2⟩
  · simp [h1, h2]

/-- The suffix by which the kind of an object is recognised. -/
def DdlSuffix : NameType → Str
  | .primaryKey => b!"_pkey" | .foreignKey => b!"_fkey" | .unique => b!"_key"
  | .index => b!"_idx" | .check => b!"_check" | .exclude => b!"_excl" | .other => b!""

/-- **C25**: a generated name is a prefix of "table and columns joined by underscores, spaces
replaced by underscores", followed by the suffix of the kind of object; nothing is cut off unless
the whole name is longer than 63 bytes, and then the result has exactly 63 bytes. -/
theorem generateName_form (t : NameType) (table : Str) (columns : List Str) :
    let full := (Go.join b!"_" (table :: columns)).map fun c => if c = ' ' then '_' else c
    ∃ p, p <+: full ∧ generateName t table columns = p ++ DdlSuffix t ∧
      (p = full ∨ ((generateName t table columns).length = 63 ∧
        63 < full.length + (DdlSuffix t).length)) := by
  intro full
  have hj : ∀ (a : Str) (l : List Str), Go.join b!"_" (a :: l) = a ++ l.flatMap fun c => '_' :: c := by
    intro a l
    induction l generalizing a with
    | nil => simp [Go.join]
    | cons b l ih => rw [Go.join, ih]; simp
  have hf : full = namePrefix table columns := by
    show List.map _ (Go.join _ _) = _
    rw [hj]
    simp only [List.map_append, namePrefix, underscored, List.map_flatMap]
    rfl
  have hs : nameSuffix t = DdlSuffix t := by cases t <;> rfl
  have hl := nameSuffix_length t
  unfold generateName
  simp only
  rw [← hf, hs]
  rw [hs] at hl
  split
  · exact ⟨_, List.take_prefix _ _, rfl, Or.inr (by simp; omega)⟩
  · exact ⟨full, List.prefix_refl _, rfl, Or.inl rfl⟩

example : generateName .foreignKey b!"film actor" [b!"film_id", b!"actor_id"] =
    b!"film_actor_film_id_actor_id_fkey" := by decide +kernel

/-- **C26, refuted**: an index on the column `b_c` and an index on the columns `b`, `c` of the
same table get the same name; so do the columns `b c` and `b_c`. -/
theorem generateName_injective_refuted : ¬ ∀ (t : NameType) (table : Str) (c1 c2 : List Str),
    c1 ≠ c2 → generateName t table c1 ≠ generateName t table c2 := by
  intro h
  exact h .index b!"a" [b!"b_c"] [b!"b", b!"c"] (by decide) (by decide)

theorem columns_inj : ∀ (c1 c2 : List Str), (∀ c ∈ c1 ++ c2, ' ' ∉ c ∧ '_' ∉ c) →
    (c1.flatMap fun c => '_' :: underscored c) = (c2.flatMap fun c => '_' :: underscored c) →
    c1 = c2 := by
  have hu : ∀ c : Str, ' ' ∉ c → underscored c = c := by
    intro c hc
    induction c with
    | nil => rfl
    | cons x c ih =>
      simp at hc
      have := ih hc.2
      simp only [underscored] at this
      simp [underscored, this, Ne.symm hc.1]
  have key : ∀ (a b x y : Str), '_' ∉ a → '_' ∉ b → (x = [] ∨ x.head? = some '_') →
      (y = [] ∨ y.head? = some '_') → a ++ x = b ++ y → a = b ∧ x = y := by
    intro a
    induction a with
    | nil =>
      intro b x y _ hb hx hy h
      cases b with
      | nil => simpa using h
      | cons c b =>
        simp at h; subst h; simp at hx hb; simp [hx] at hb
    | cons c a ih =>
      intro b x y ha hb hx hy h
      cases b with
      | nil => simp at h; subst h; simp at hy ha; simp [hy] at ha
      | cons d b =>
        simp at h ha hb
        have := ih b x y ha.2 hb.2 hx hy h.2
        simp [h.1, this]
  have hh : ∀ l : List Str, (l.flatMap fun c => '_' :: underscored c) = [] ∨
      (l.flatMap fun c => '_' :: underscored c).head? = some '_' := by
    intro l; cases l <;> simp
  intro c1
  induction c1 with
  | nil => intro c2 _ h; cases c2 <;> simp at h ⊢
  | cons a c1 ih =>
    intro c2 hc h
    cases c2 with
    | nil => simp at h
    | cons b c2 =>
      have ha := hc a (by simp)
      have hb := hc b (by simp)
      simp only [List.flatMap_cons, List.cons_append, hu a ha.1, hu b hb.1, List.cons.injEq,
        true_and] at h
      have := key a b _ _ ha.2 hb.2 (hh c1) (hh c2) h
      rw [this.1, ih c2 (fun c hx => hc c (by simp at hx ⊢; grind)) this.2]

/-- **C26, partial**: on one table two different lists of columns get different names, if no
column name contains a space or an underscore and the names are not longer than 63 bytes.
Missing: all other names, for which it is false. -/
theorem generateName_injective_partial (t : NameType) (table : Str) (c1 c2 : List Str)
    (hc : ∀ c ∈ c1 ++ c2, ' ' ∉ c ∧ '_' ∉ c)
    (h1 : (generateName t table c1).length < 63) (h2 : (generateName t table c2).length < 63)
    (hne : c1 ≠ c2) : generateName t table c1 ≠ generateName t table c2 := by
  intro he
  apply hne
  have hl := nameSuffix_length t
  have hg : ∀ c, (generateName t table c).length < 63 →
      generateName t table c = namePrefix table c ++ nameSuffix t := by
    intro c
    unfold generateName
    simp only
    split
    · simp; omega
    · simp
  rw [hg c1 h1, hg c2 h2] at he
  have := List.append_cancel_right he
  exact columns_inj c1 c2 hc (by simpa [namePrefix] using this)

example : (∀ c ∈ [b!"b", b!"c"] ++ [b!"bc"], ' ' ∉ c ∧ '_' ∉ c) ∧
    (generateName .index b!"a" [b!"b", b!"c"]).length < 63 ∧
    (generateName .index b!"a" [b!"bc"]).length < 63 ∧ [b!"b", b!"c"] ≠ [b!"bc"] := by decide

/-- **C26**, the part that holds: names of objects of different kinds are never the same. -/
theorem generateName_kind (t t' : NameType) (table table' : Str) (c c' : List Str)
    (ht : t ≠ .other) (ht' : t' ≠ .other) (hne : t ≠ t') :
    generateName t table c ≠ generateName t' table' c' := by
  have hs : ∀ t table c, ∃ p, generateName t table c = p ++ nameSuffix t := by
    intro t table c
    unfold generateName
    simp only
    split
    · exact ⟨_, rfl⟩
    · exact ⟨_, rfl⟩
  obtain ⟨p, hp⟩ := hs t table c
  obtain ⟨p', hp'⟩ := hs t' table' c'
  rw [hp, hp']
  intro h
  replace h := congrArg List.reverse h
  clear hp hp' hs
  revert h ht ht' hne
  cases t <;> cases t' <;> simp [nameSuffix]

/-- Names of different kinds exist: the hypotheses of `generateName_kind` are met. -/
example : generateName .unique b!"a" [b!"b"] = b!"a_b_key" ∧
    generateName .primaryKey b!"a" [b!"b"] = b!"a_b_pkey" := by decide

theorem utf8_append (n : Nat) (a b : Str) :
    utf8From n (a ++ b) = (utf8From n a).bind fun m => utf8From m b := by
  induction a generalizing n with
  | nil => cases n <;> simp [utf8From]
  | cons c a ih =>
    cases n <;> simp only [List.cons_append, utf8From] <;> repeat' split
    all_goals simp_all

theorem utf8_underscored (n : Nat) (a : Str) : utf8From n (underscored a) = utf8From n a := by
  induction a generalizing n with
  | nil => rfl
  | cons c a ih =>
    simp only [underscored] at ih
    by_cases hc : c = ' '
    · cases n <;> simp [underscored, utf8From, hc, ih]
    · cases n <;> simp [underscored, utf8From, hc, ih]

theorem utf8_namePrefix (table : Str) (columns : List Str) (ht : Utf8 table)
    (hc : ∀ c ∈ columns, Utf8 c) : Utf8 (namePrefix table columns) := by
  unfold Utf8 at *
  rw [namePrefix, utf8_append, utf8_underscored, ht]
  simp only [Option.bind_some]
  induction columns with
  | nil => rfl
  | cons c l ih =>
    rw [List.flatMap_cons, utf8_append]
    have : utf8From 0 ('_' :: underscored c) = some 0 := by
      simp [utf8From, utf8_underscored, hc c (by simp)]
    simp [this, ih fun c h => hc c (by simp [h])]

/-- **C61, partial**: the name generated for UTF-8 names is valid UTF-8 if it is shorter than the
63 bytes to which names are cut.  Missing: names that are cut, see `generateName_utf8_refuted`. -/
theorem generateName_utf8_partial (t : NameType) (table : Str) (columns : List Str)
    (ht : Utf8 table) (hc : ∀ c ∈ columns, Utf8 c)
    (hl : (generateName t table columns).length < 63) : Utf8 (generateName t table columns) := by
  have hp := utf8_namePrefix table columns ht hc
  have hs : Utf8 (nameSuffix t) := by cases t <;> decide
  have := nameSuffix_length t
  revert hl
  unfold generateName
  simp only
  split
  · simp; omega
  · intro _
    unfold Utf8 at *
    rw [utf8_append, hp]
    exact hs

/-- The hypotheses are met by the table `Ã©` (the bytes of "é"). -/
example : Utf8 b!"Ã©" ∧ (generateName .index b!"Ã©" [b!"a"]).length < 63 := by
  constructor <;> decide

/-- **C61, refuted**: a name is cut after 63 bytes, also in the middle of a character. -/
theorem generateName_utf8_refuted : ¬ ∀ t table columns, Utf8 table → (∀ c ∈ columns, Utf8 c) →
    Utf8 (generateName t table columns) := by
  intro h
  have := h .index (List.replicate 30 b!"Ã©").flatten [] (by decide) (by decide)
  revert this
  decide

/-! ## Brackets -/

theorem depth_append (n : Nat) (a b : Str) :
    depth n (a ++ b) = (depth n a).bind fun m => depth m b := by
  induction a generalizing n with
  | nil => rfl
  | cons c a ih => simp only [List.cons_append, depth]; repeat' split
                   all_goals simp_all

theorem Balanced.depth {s} (h : Balanced s) : ∀ n, DdlSpec.depth n s = some n := by
  induction h with
  | nil => intro n; rfl
  | char x s hx _ ih => intro n; simp at hx; simp [DdlSpec.depth, hx, ih]
  | paren a s _ _ ih1 ih2 =>
    intro n
    rw [depth_append]
    simp [DdlSpec.depth, ih1, ih2]

theorem Balanced.append {a b} (ha : Balanced a) (hb : Balanced b) : Balanced (a ++ b) := by
  induction ha with
  | nil => exact hb
  | char x s hx _ ih => exact .char x _ hx ih
  | paren a s h1 _ _ ih2 => rw [List.append_assoc]; exact .paren a _ h1 ih2

/-- **C62, partial**: wrapBrackets turns a well-nested expression into one parenthesised
expression, if it is not of the form `(...)...(...)`.  Missing: that form, see
`wrapBrackets_refuted`. -/
theorem wrapBrackets_enclosed_partial (s : Str) (hs : Balanced s) (hne : s ≠ [])
    (hw : Enclosed s ∨ s.head? ≠ some '(' ∨ s.getLast? ≠ some ')') :
    Enclosed (wrapBrackets s) := by
  unfold wrapBrackets
  rw [if_neg hne]
  split
  · rename_i h
    simp [wrappedInBrackets] at h
    rcases hw with hw | hw | hw
    · exact hw
    · exact absurd h.1 hw
    · exact absurd h.2 hw
  · exact ⟨s, rfl, hs⟩

example : Balanced b!"(a)+b" ∧ b!"(a)+b".getLast? ≠ some ')' :=
  ⟨.paren b!"a" _ (.char _ _ (by decide) .nil) (.char _ _ (by decide) (.char _ _ (by decide) .nil)),
   by decide⟩

/-- **C62, refuted**: the expression `(a)||(b)` is taken to be wrapped already, so that
`GENERATED ALWAYS AS (a)||(b) STORED` is written. -/
theorem wrapBrackets_refuted : ¬ ∀ s, Balanced s → s ≠ [] → Enclosed (wrapBrackets s) := by
  intro h
  have hb : Balanced b!"(a)||(b)" :=
    .paren b!"a" _ (.char _ _ (by decide) .nil) (.char _ _ (by decide) (.char _ _ (by decide)
      (.paren b!"b" [] (.char _ _ (by decide) .nil) .nil)))
  obtain ⟨a, h1, h2⟩ := h _ hb (by decide)
  have h3 : wrapBrackets b!"(a)||(b)" = b!"(a)||(b)" := by decide
  rw [h3] at h1
  simp at h1
  have h4 : a = b!"a)||(b" := by
    have h5 := congrArg List.dropLast h1
    simpa using h5.symm
  have h6 := Balanced.depth h2 0
  rw [h4] at h6
  revert h6
  decide

/-- **C62, partial**: unwrapBrackets takes off the parentheses of one parenthesised expression and
leaves any expression alone that is not wrapped. -/
theorem unwrapBrackets_partial (s : Str) :
    (∀ a, s = '(' :: a ++ [')'] → unwrapBrackets s = a) ∧
    (s.head? ≠ some '(' ∨ s.getLast? ≠ some ')' → unwrapBrackets s = s) := by
  constructor
  · rintro a rfl
    have : wrappedInBrackets ('(' :: a ++ [')']) = true := by
      simp only [wrappedInBrackets, List.getLast?_append]; simp
    rw [unwrapBrackets, if_pos this]
    simp
  · intro h
    unfold unwrapBrackets
    rw [if_neg]
    simp [wrappedInBrackets]
    rcases h with h | h
    · intro h1; exact absurd h1 h
    · intro _; exact h

example : unwrapBrackets b!"((a)||(b))" = b!"(a)||(b)" ∧ unwrapBrackets b!"f(a)" = b!"f(a)" := by
  decide

/-- **C62, refuted**: unwrapping the well-nested expression `(a)||(b)` gives `a)||(b`. -/
theorem unwrapBrackets_refuted : ¬ ∀ s, Balanced s → Balanced (unwrapBrackets s) := by
  intro h
  have hb : Balanced b!"(a)||(b)" :=
    .paren b!"a" _ (.char _ _ (by decide) .nil) (.char _ _ (by decide) (.char _ _ (by decide)
      (.paren b!"b" [] (.char _ _ (by decide) .nil) .nil)))
  have h6 := Balanced.depth (h _ hb) 0
  revert h6
  decide

/-! ## Versions -/

/-- **C29**: a version is lower than another iff it has the lower number at the first position
where the two differ. -/
theorem lowerThan_iff (v w : List Int) : lowerThan v w = true ↔ Lower v w := by
  constructor
  · intro h
    induction v generalizing w with
    | nil => simp [lowerThan] at h
    | cons x v ih =>
      cases w with
      | nil => simp [lowerThan] at h
      | cons y w =>
        simp only [lowerThan] at h
        split at h
        · simp at h
        · split at h
          · exact ⟨[], x, y, v, w, rfl, rfl, by omega⟩
          · obtain ⟨c, x', y', v', w', h1, h2, h3⟩ := ih w h
            exact ⟨x :: c, x', y', v', w', by simp [h1], by simp [h2]; omega, h3⟩
  · rintro ⟨c, x, y, v', w', rfl, rfl, h⟩
    induction c with
    | nil => simp [lowerThan, h]; omega
    | cons z c ih => simp [lowerThan, ih]

/-- **C29**: GreaterOrEqualTo is the negation of LowerThan. -/
theorem greaterOrEqualTo_iff (v w : List Int) : greaterOrEqualTo v w = true ↔ ¬ Lower v w := by
  rw [← lowerThan_iff]; simp [greaterOrEqualTo]

/-- **C29**: LowerThan is a strict order: irreflexive and transitive, and total on version numbers
of the same length. -/
theorem lowerThan_order :
    (∀ v, lowerThan v v = false) ∧
    (∀ u v w, lowerThan u v = true → lowerThan v w = true → lowerThan u w = true) ∧
    (∀ v w, v.length = w.length → lowerThan v w = true ∨ v = w ∨ lowerThan w v = true) := by
  refine ⟨?_, ?_, ?_⟩
  · intro v; induction v with
    | nil => rfl
    | cons x v ih => simp [lowerThan, ih]
  · intro u
    induction u with
    | nil => intro v w h; simp [lowerThan] at h
    | cons x u ih =>
      intro v w h1 h2
      cases v with
      | nil => simp [lowerThan] at h1
      | cons y v =>
        cases w with
        | nil => simp [lowerThan] at h2
        | cons z w =>
          have := ih v w
          simp only [lowerThan] at *
          grind
  · intro v
    induction v with
    | nil =>
      intro w h
      have : w = [] := List.length_eq_zero_iff.1 h.symm
      simp [this]
    | cons x v ih =>
      intro w h
      cases w with
      | nil => simp at h
      | cons y w =>
        have := ih w (by simpa using h)
        simp only [lowerThan]
        grind

example : lowerThan [10, 5, 3] [10, 6] = true ∧ greaterOrEqualTo [12, 1] [12] = true := by decide

end Sqddl
