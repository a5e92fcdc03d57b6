import Verif.Spec.Load
import Verif.Props.Files

/-!
# C51: loads run in dependency order
-/

namespace Sqddl.Load
open Go LoadSpec

theorem runSeq_ok (ok : Job → Bool) (js : List Job) (h : (runSeq ok js).2 = true) :
    (runSeq ok js).1 = js ∧ ∀ j ∈ js, ok j = true := by
  induction js with
  | nil => simp [runSeq]
  | cons j r ih =>
    unfold runSeq at h ⊢
    cases hj : ok j with
    | false => simp [hj] at h
    | true =>
      simp only [hj, if_true] at h ⊢
      obtain ⟨h1, h2⟩ := ih h
      simp [h1, hj]
      exact h2

theorem runSeq_prefix (ok : Job → Bool) (js : List Job) : (runSeq ok js).1 <+: js := by
  induction js with
  | nil => simp [runSeq]
  | cons j r ih =>
    unfold runSeq
    cases hj : ok j with
    | false => simp
    | true => simpa using ih

theorem runSeq_bad (ok : Job → Bool) (js : List Job) (h : (runSeq ok js).2 = false) :
    ∃ j ∈ (runSeq ok js).1, ok j = false := by
  induction js with
  | nil => simp [runSeq] at h
  | cons j r ih =>
    unfold runSeq at h ⊢
    cases hj : ok j with
    | false => simp [hj]
    | true =>
      simp only [hj, if_true] at h ⊢
      obtain ⟨x, hx, hb⟩ := ih h
      exact ⟨x, by simp [hx], hb⟩

theorem runSeq_sqlJob (ok : Job → Bool) (o : Option Entry) :
    (runSeq ok (sqlJob o)).1 = sqlJob o := by
  cases o with
  | none => rfl
  | some e =>
    simp only [sqlJob]
    split
    · rfl
    · simp only [runSeq]
      split <;> rfl

/-- **C51**, the order.  Whatever fails and in whatever order the CSV files are scheduled: the
schema is run first, then CSV files (each at most once), then the indexes, then the constraints, and
a part only runs if all parts before it ran completely and without error. -/
theorem load_in_order (ok : Job → Bool) (order : Option (List Job → List Job))
    (ho : ∀ f ∈ order, ∀ l, (f l).Perm l) (p : Plan) :
    InOrder ok (sqlJob p.schema) (p.csvs.map csvJob) (sqlJob p.indexes) (sqlJob p.constraints)
      (runPlan ok order p).1 := by
  constructor
  unfold runPlan
  generalize hC : runCsvs ok order (p.csvs.map csvJob) = C
  have hC1 : ∃ all, all.Perm (p.csvs.map csvJob) ∧ C.1 <+: all := by
    cases order with
    | none => exact ⟨_, List.Perm.refl _, by rw [← hC]; exact runSeq_prefix _ _⟩
    | some f =>
      refine ⟨C.1, ?_, List.prefix_refl _⟩
      rw [← hC]
      exact ho f rfl _
  have hC2 : C.2 = true → C.1.Perm (p.csvs.map csvJob) ∧ ∀ j ∈ C.1, ok j = true := by
    cases order with
    | none =>
      rw [← hC]
      intro h
      obtain ⟨h1, h2⟩ := runSeq_ok _ _ h
      refine ⟨List.Perm.of_eq h1, fun j hj => h2 j ?_⟩
      rw [show (runCsvs ok none (p.csvs.map csvJob)).1 = (runSeq ok (p.csvs.map csvJob)).1 from rfl,
        h1] at hj
      exact hj
    | some f =>
      rw [← hC]
      intro h
      exact ⟨ho f rfl _, List.all_eq_true.1 h⟩
  have hs := runSeq_sqlJob ok p.schema
  have hi := runSeq_sqlJob ok p.indexes
  have hk := runSeq_sqlJob ok p.constraints
  cases hS : (runSeq ok (sqlJob p.schema)).2 with
  | false =>
    refine ⟨[], [], [], ?_⟩
    simp only [andThen, hS]
    simp only [Bool.false_eq_true, if_false, hs]
    refine ⟨by simp, ⟨_, List.Perm.refl _, List.nil_prefix⟩, .inl trivial, .inl trivial, by simp, by simp, by simp⟩
  | true =>
    have hsok := (runSeq_ok _ _ hS).2
    cases hCb : C.2 with
    | false =>
      refine ⟨C.1, [], [], ?_⟩
      simp only [andThen, hS, hCb, if_true, hs, Bool.false_eq_true, if_false]
      exact ⟨by simp, hC1, .inl trivial, .inl trivial, fun _ => hsok, by simp, by simp⟩
    | true =>
      have hcs := hC2 hCb
      cases hI : (runSeq ok (sqlJob p.indexes)).2 with
      | false =>
        refine ⟨C.1, sqlJob p.indexes, [], ?_⟩
        simp only [andThen, hS, hCb, hI, if_true, hs]
        simp only [Bool.false_eq_true, if_false, hi]
        exact ⟨by simp, hC1, .inr trivial, .inl trivial, fun _ => hsok, fun _ => hcs, by simp⟩
      | true =>
        refine ⟨C.1, sqlJob p.indexes, sqlJob p.constraints, ?_⟩
        simp only [andThen, hS, hCb, hI, if_true, hs, hi, hk]
        exact ⟨by simp, hC1, .inr trivial, .inr trivial, fun _ => hsok, fun _ => hcs,
          fun _ => ⟨trivial, (runSeq_ok _ _ hI).2⟩⟩

/-- **C51**: a load that reports success has run everything of its plan, without error. -/
theorem load_complete (ok : Job → Bool) (order : Option (List Job → List Job))
    (ho : ∀ f ∈ order, ∀ l, (f l).Perm l) (p : Plan) (h : (runPlan ok order p).2 = true) :
    (∀ j ∈ (runPlan ok order p).1, ok j = true) ∧
    ∃ c, c.Perm (p.csvs.map csvJob) ∧
      (runPlan ok order p).1 = sqlJob p.schema ++ c ++ sqlJob p.indexes ++ sqlJob p.constraints := by
  unfold runPlan at h ⊢
  generalize hC : runCsvs ok order (p.csvs.map csvJob) = C at h
  have hC2 : C.2 = true → C.1.Perm (p.csvs.map csvJob) ∧ ∀ j ∈ C.1, ok j = true := by
    cases order with
    | none =>
      rw [← hC]
      intro h
      obtain ⟨h1, h2⟩ := runSeq_ok _ _ h
      refine ⟨List.Perm.of_eq h1, fun j hj => h2 j ?_⟩
      rw [show (runCsvs ok none (p.csvs.map csvJob)).1 = (runSeq ok (p.csvs.map csvJob)).1 from rfl,
        h1] at hj
      exact hj
    | some f =>
      rw [← hC]
      intro h
      exact ⟨ho f rfl _, List.all_eq_true.1 h⟩
  unfold andThen at h
  cases hS : (runSeq ok (sqlJob p.schema)).2 with
  | false => simp [hS] at h
  | true =>
    cases hCb : C.2 with
    | false => simp [hS, hCb] at h
    | true =>
      cases hI : (runSeq ok (sqlJob p.indexes)).2 with
      | false => simp [hS, hCb, hI] at h
      | true =>
        cases hK : (runSeq ok (sqlJob p.constraints)).2 with
        | false => simp [hS, hCb, hI, hK] at h
        | true =>
          obtain ⟨s1, s2⟩ := runSeq_ok _ _ hS
          obtain ⟨c1, c2⟩ := hC2 hCb
          obtain ⟨i1, i2⟩ := runSeq_ok _ _ hI
          obtain ⟨k1, k2⟩ := runSeq_ok _ _ hK
          simp only [andThen, hS, hCb, hI, if_true, s1, i1, k1]
          refine ⟨?_, C.1, c1, by simp⟩
          intro j hj
          simp only [List.mem_append] at hj
          rcases hj with hj | hj | hj | hj
          · exact s2 j hj
          · exact c2 j hj
          · exact i2 j hj
          · exact k2 j hj

/-! ## Which files -/

theorem isNamed_iff (archive file n : Str) : isNamed archive file n = true ↔ AtTop archive file n := by
  simp [isNamed, AtTop]

theorem splitSlash_ne (s : Str) : splitSlash s ≠ [] := by
  induction s with
  | nil => simp [splitSlash]
  | cons c r ih =>
    unfold splitSlash
    split
    · simp
    · cases h : splitSlash r <;> simp

theorem splitSlash_part (s : Str) (h : '/' ∉ s) : splitSlash s = [s] := by
  induction s with
  | nil => rfl
  | cons c r ih =>
    simp only [List.mem_cons, not_or] at h
    simp [splitSlash, Ne.symm h.1, ih h.2]

theorem splitSlash_append (s r : Str) (h : '/' ∉ s) :
    splitSlash (s ++ '/' :: r) = s :: splitSlash r := by
  induction s with
  | nil => simp [splitSlash]
  | cons c t ih =>
    simp only [List.mem_cons, not_or] at h
    simp [splitSlash, Ne.symm h.1, ih h.2]

theorem splitSlash_join (parts : List Str) (hne : parts ≠ []) (h : ∀ p ∈ parts, '/' ∉ p) :
    splitSlash (join b!"/" parts) = parts := by
  induction parts with
  | nil => exact absurd rfl hne
  | cons x r ih =>
    cases r with
    | nil => simpa [join] using splitSlash_part x (h x (by simp))
    | cons y r =>
      rw [join]
      simp only [List.append_assoc, List.cons_append, List.nil_append]
      rw [splitSlash_append _ _ (h x (by simp)), ih (by simp) fun p hp => h p (by simp [hp])]

theorem cleanParts_real (rooted : Bool) (parts stack : List Str) (h : ∀ p ∈ parts, RealPart p) :
    cleanParts rooted parts stack = stack.reverse ++ parts := by
  induction parts generalizing stack with
  | nil => simp [cleanParts]
  | cons p r ih =>
    obtain ⟨h1, h2, h3, _⟩ := h p (by simp)
    rw [cleanParts.eq_def]
    simp only
    rw [if_neg (by simp [h1, h2]), if_neg h3, ih _ fun q hq => h q (by simp [hq])]
    simp

theorem cleanParts_trailing (rooted : Bool) (parts stack : List Str) :
    cleanParts rooted (parts ++ [[]]) stack = cleanParts rooted parts stack := by
  induction parts generalizing stack with
  | nil => simp [cleanParts]
  | cons p r ih =>
    simp only [List.cons_append, cleanParts]
    split
    · exact ih _
    · split
      · cases stack with
        | nil => exact ih _
        | cons t ts =>
          simp only
          split <;> exact ih _
      · exact ih _

theorem join_snoc (parts : List Str) (hne : parts ≠ []) (last : Str) :
    join b!"/" (parts ++ [last]) = join b!"/" parts ++ '/' :: last := by
  induction parts with
  | nil => exact absurd rfl hne
  | cons x r ih =>
    cases r with
    | nil => simp [join]
    | cons y r =>
      have := ih (by simp)
      simp only [List.cons_append] at this ⊢
      rw [join, join, this]
      simp

theorem baseName_noslash (s : Str) (h : '/' ∉ s) : baseName s = s := by
  unfold baseName
  have := List.takeWhile_append_of_pos (p := (· ≠ '/')) (l₁ := s.reverse) (l₂ := []) ?_
  · simp only [List.append_nil] at this
    rw [this]; simp
  intro c hc
  simp only [List.mem_reverse] at hc
  simp only [ne_eq, decide_not, Bool.not_eq_eq_eq_not, Bool.not_true, decide_eq_false_iff_not]
  rintro rfl
  exact h hc

theorem baseName_append (p s : Str) (h : '/' ∉ s) : baseName (p ++ '/' :: s) = s := by
  unfold baseName
  simp only [List.reverse_append, List.reverse_cons, List.append_assoc]
  rw [List.takeWhile_append_of_pos]
  · simp
  · intro c hc
    simp only [List.mem_reverse] at hc
    simp only [ne_eq, decide_not, Bool.not_eq_eq_eq_not, Bool.not_true, decide_eq_false_iff_not]
    rintro rfl
    exact h hc

theorem hasPrefix_slash (s : Str) : hasPrefix s b!"/" = true ↔ s.head? = some '/' := by
  cases s with
  | nil => decide
  | cons c r => simp [hasPrefix]; exact eq_comm

theorem clean_tidy_dir (parts : List Str) (hne : parts ≠ []) (h : ∀ p ∈ parts, RealPart p) :
    clean (join b!"/" parts ++ b!"/") = join b!"/" parts := by
  have hsplit : splitSlash (join b!"/" parts ++ b!"/") = parts ++ [[]] := by
    have := splitSlash_join (parts ++ [[]]) (by simp) (by
      intro p hp
      simp only [List.mem_append, List.mem_singleton] at hp
      rcases hp with hp | rfl
      · exact (h p hp).2.2.2
      · simp)
    rwa [join_snoc parts hne] at this
  have hhead : hasPrefix (join b!"/" parts ++ b!"/") b!"/" = false := by
    cases parts with
    | nil => exact absurd rfl hne
    | cons x r =>
      have hx := h x (by simp)
      rw [← Bool.not_eq_true, hasPrefix_slash]
      cases x with
      | nil => exact absurd rfl hx.1
      | cons c t =>
        have : (join b!"/" ((c :: t) :: r)).head? = some c := by cases r <;> simp [join]
        rw [List.head?_append, this]
        simp only [Option.some_or, Option.some.injEq]
        rintro rfl
        exact hx.2.2.2 (by simp)
  have hne' : join b!"/" parts ≠ [] := by
    cases parts with
    | nil => exact absurd rfl hne
    | cons x r =>
      have hx := (h x (by simp)).1
      cases r <;> simp [join, hx]
  unfold clean
  simp only [hsplit, hhead, cleanParts_trailing, cleanParts_real false parts [] h]
  simp [hne']

/-- The CSV files of an archive are those at its top or in the directory named like it, as long as
names have no `.`, `..` or empty parts. -/
theorem isTopCsv_iff (archive n : Str) (hn : Tidy n) :
    isTopCsv archive n = true ↔ TopCsv archive n := by
  obtain ⟨parts, hne, hp, rfl⟩ := hn
  obtain ⟨ini, last, rfl⟩ : ∃ ini last, parts = ini ++ [last] :=
    ⟨_, _, (List.dropLast_concat_getLast hne).symm⟩
  have hl := hp last (by simp)
  have hini : ∀ p ∈ ini, RealPart p := fun p h => hp p (by simp [h])
  by_cases hi : ini = []
  · subst hi
    simp only [List.nil_append, join]
    have hdir : dir last = b!"." := by
      simp only [dir, baseName_noslash _ hl.2.2.2]
      simp only [Nat.sub_self, List.take_zero]
      decide
    simp only [isTopCsv, hdir, Bool.and_eq_true, hasSuffix_iff]
    constructor
    · exact fun h => ⟨last, hl.2.2.2, h.1, .inl rfl⟩
    · rintro ⟨f, hf, hs, h⟩
      refine ⟨?_, by simp⟩
      rcases h with h | h
      · rw [h]; exact hs
      · exact absurd (by rw [h]; simp) hl.2.2.2
  · rw [join_snoc ini hi]
    have hdir : dir (join b!"/" ini ++ '/' :: last) = join b!"/" ini := by
      simp only [dir, baseName_append _ _ hl.2.2.2]
      rw [show (join b!"/" ini ++ '/' :: last).take
          ((join b!"/" ini ++ '/' :: last).length - last.length) = join b!"/" ini ++ b!"/" by
        rw [show join b!"/" ini ++ '/' :: last = (join b!"/" ini ++ b!"/") ++ last by simp]
        rw [List.length_append, Nat.add_sub_cancel, List.take_left']
        rfl]
      exact clean_tidy_dir ini hi hini
    have hnd : join b!"/" ini ≠ b!"." := by
      intro h
      have : splitSlash (join b!"/" ini) = splitSlash b!"." := by rw [h]
      rw [splitSlash_join ini hi fun p h => (hini p h).2.2.2] at this
      have hm : b!"." ∈ ini := by rw [this]; decide
      exact (hini _ hm).2.1 rfl
    simp only [isTopCsv, hdir, Bool.and_eq_true, hasSuffix_iff]
    simp only [hnd, decide_false, Bool.false_or, decide_eq_true_eq]
    constructor
    · rintro ⟨h1, h2⟩
      refine ⟨last, hl.2.2.2, ?_, .inr (by rw [h2])⟩
      obtain ⟨a, ha'⟩ := h1
      have hb := congrArg baseName ha'
      rw [baseName_append _ _ hl.2.2.2] at hb
      refine ⟨baseName a, ?_⟩
      rw [hb]
      unfold baseName
      rw [List.reverse_append, List.takeWhile_append_of_pos]
      · simp
      · decide
    · rintro ⟨f, hf, hs, h⟩
      rcases h with h | h
      · exact absurd (by rw [← h]; simp) hf
      · have hb := congrArg baseName h
        rw [baseName_append _ _ hl.2.2.2, baseName_append _ _ hf] at hb
        subst hb
        have := List.append_cancel_right h
        refine ⟨?_, this⟩
        obtain ⟨a, ha'⟩ := hs
        exact ⟨join b!"/" ini ++ '/' :: a, by rw [ha']; simp⟩

/-- The three SQL files of a dump. -/
inductive Role
  | schema | indexes | constraints
deriving DecidableEq

/-- The name of the file. -/
def Role.file : Role → Str
  | .schema => b!"schema.sql"
  | .indexes => b!"indexes.sql"
  | .constraints => b!"constraints.sql"

/-- The file in a plan. -/
def Plan.get (p : Plan) : Role → Option Entry
  | .schema => p.schema
  | .indexes => p.indexes
  | .constraints => p.constraints

theorem atTop_exclusive (archive f g n : Str) (hf : '/' ∉ f) (hg : '/' ∉ g)
    (h1 : AtTop archive f n) (h2 : AtTop archive g n) : f = g := by
  rcases h1 with rfl | rfl <;> rcases h2 with h | h
  · exact h
  · exact absurd (by rw [h]; simp) hf
  · exact absurd (by rw [← h]; simp) hg
  · simpa using h

theorem role_noslash (r : Role) : '/' ∉ r.file := by cases r <;> decide

theorem role_inj (r s : Role) (h : r.file = s.file) : r = s := by
  cases r <;> cases s <;> first | rfl | (revert h; decide)

theorem named_exclusive (archive n : Str) (r s : Role) (h1 : isNamed archive r.file n = true)
    (h2 : isNamed archive s.file n = true) : r = s :=
  role_inj _ _ (atTop_exclusive archive _ _ n (role_noslash r) (role_noslash s)
    ((isNamed_iff _ _ _).1 h1) ((isNamed_iff _ _ _).1 h2))

/-- At most one entry for each of the three files. -/
def OneEach (archive : Str) (es : List Entry) : Prop :=
  ∀ r : Role, es.Pairwise fun a b =>
    ¬ (AtTop archive r.file a.name ∧ AtTop archive r.file b.name)

/-- What has been found is not found again. -/
def NotAgain (archive : Str) (p : Plan) (es : List Entry) : Prop :=
  ∀ r : Role, (p.get r).isSome = true → ∀ e ∈ es, isNamed archive r.file e.name = false

/-- One step of both searches: `put` is what is stored for an entry. -/
def step (archive : Str) (put : Option Entry → Entry → Option Entry) (e : Entry) (p : Plan) : Plan :=
  if isNamed archive b!"schema.sql" e.name then { p with schema := put p.schema e }
  else if isNamed archive b!"indexes.sql" e.name then { p with indexes := put p.indexes e }
  else if isNamed archive b!"constraints.sql" e.name then { p with constraints := put p.constraints e }
  else p

theorem step_get (archive : Str) (put : Option Entry → Entry → Option Entry) (e : Entry) (p : Plan)
    (r : Role) :
    (step archive put e p).get r =
      if isNamed archive r.file e.name then put (p.get r) e else p.get r := by
  have ex := named_exclusive archive e.name
  unfold step
  split
  · rename_i h
    cases r with
    | schema => simp [Plan.get, Role.file, h]
    | indexes =>
      rw [if_neg (fun h' => by cases ex .schema .indexes h h')]; rfl
    | constraints =>
      rw [if_neg (fun h' => by cases ex .schema .constraints h h')]; rfl
  · rename_i h1
    split
    · rename_i h
      cases r with
      | schema => exact (if_neg h1).symm
      | indexes => simp [Plan.get, Role.file, h]
      | constraints => rw [if_neg (fun h' => by cases ex .indexes .constraints h h')]; rfl
    · rename_i h2
      split
      · rename_i h
        cases r with
        | schema => exact (if_neg h1).symm
        | indexes => exact (if_neg h2).symm
        | constraints => simp [Plan.get, Role.file, h]
      · rename_i h3
        cases r with
        | schema => exact (if_neg h1).symm
        | indexes => exact (if_neg h2).symm
        | constraints => exact (if_neg h3).symm

theorem find_none_of_found (archive : Str) (p : Plan) (es : List Entry)
    (r : Role) (hs : (p.get r).isSome = true) :
    p.get r = (p.get r).or (es.find? fun e => isNamed archive r.file e.name) := by
  cases hg : p.get r with
  | none => rw [hg] at hs; cases hs
  | some e => simp

theorem step_notAgain (archive : Str) (put : Option Entry → Entry → Option Entry) (e : Entry)
    (p : Plan) (es : List Entry) (hone : OneEach archive (e :: es))
    (h : NotAgain archive p (e :: es)) : NotAgain archive (step archive put e p) es := by
  intro r hr x hx
  rw [step_get] at hr
  split at hr
  · rename_i hn
    have := (List.pairwise_cons.1 (hone r)).1 x hx
    rw [← Bool.not_eq_true, isNamed_iff]
    exact fun hx' => this ⟨(isNamed_iff _ _ _).1 hn, hx'⟩
  · exact h r hr x (by simp [hx])

theorem step_find (archive : Str) (put : Option Entry → Entry → Option Entry)
    (hput : ∀ e, put none e = some e) (e : Entry) (p : Plan) (es : List Entry)
    (h : NotAgain archive p (e :: es)) (r : Role) :
    ((step archive put e p).get r).or (es.find? fun x => isNamed archive r.file x.name) =
      (p.get r).or ((e :: es).find? fun x => isNamed archive r.file x.name) := by
  rw [step_get]
  cases hn : isNamed archive r.file e.name with
  | false => simp [hn]
  | true =>
    have hnone : p.get r = none := by
      cases hg : p.get r with
      | none => rfl
      | some y =>
        have := h r (by rw [hg]; rfl) e (by simp)
        rw [hn] at this; cases this
    simp [hn, hnone, hput]

theorem locateZip_cons (archive : Str) (e : Entry) (es : List Entry) (p q : Plan)
    (hq : step archive (fun _ e => some e) e p = q) :
    locateZip archive (e :: es) p =
      if hasPrefix e.name b!"__MACOSX/" then locateZip archive es p
      else if q.schema.isSome ∧ q.indexes.isSome ∧ q.constraints.isSome then q
      else locateZip archive es q := by
  subst hq; rfl

theorem locateTgz_cons (archive : Str) (e : Entry) (es : List Entry) (p q : Plan)
    (hq : step archive addText e p = q) :
    locateTgz archive (e :: es) p =
      if filled q.schema ∧ filled q.indexes ∧ filled q.constraints then q
      else locateTgz archive es q := by
  subst hq; rfl

theorem locateZip_get (archive : Str) (es : List Entry)
    (hmac : ∀ e ∈ es, ∀ r : Role, isNamed archive r.file e.name = true →
      hasPrefix e.name b!"__MACOSX/" = false)
    (p : Plan) (hone : OneEach archive es) (h : NotAgain archive p es) (r : Role) :
    (locateZip archive es p).get r =
      (p.get r).or (es.find? fun e => isNamed archive r.file e.name) := by
  induction es generalizing p with
  | nil => simp [locateZip]
  | cons e es ih =>
    have hone' : OneEach archive es := fun r => (List.pairwise_cons.1 (hone r)).2
    have hmac' : ∀ e ∈ es, ∀ r : Role, isNamed archive r.file e.name = true →
      hasPrefix e.name b!"__MACOSX/" = false := fun x hx => hmac x (by simp [hx])
    rw [locateZip_cons archive e es p _ rfl]
    split
    · rename_i hm
      have hn : isNamed archive r.file e.name = false := by
        cases hn : isNamed archive r.file e.name with
        | false => rfl
        | true => rw [hmac e (by simp) r hn] at hm; cases hm
      rw [ih hmac' p hone' fun r hr x hx => h r hr x (by simp [hx])]
      simp [hn]
    · have hs := step_notAgain archive (fun _ e => some e) e p es hone h
      have hf := step_find archive (fun _ e => some e) (fun _ => rfl) e p es h r
      rw [← hf]
      split
      · rename_i hb
        refine find_none_of_found _ _ _ r ?_
        cases r
        · exact hb.1
        · exact hb.2.1
        · exact hb.2.2
      · exact ih hmac' _ hone' hs

theorem filled_isSome (o : Option Entry) (h : filled o = true) : o.isSome = true := by
  cases o with
  | none => simp [filled] at h
  | some e => rfl

theorem locateTgz_get (archive : Str) (es : List Entry) (p : Plan) (hone : OneEach archive es)
    (h : NotAgain archive p es) (r : Role) :
    (locateTgz archive es p).get r =
      (p.get r).or (es.find? fun e => isNamed archive r.file e.name) := by
  induction es generalizing p with
  | nil => simp [locateTgz]
  | cons e es ih =>
    have hone' : OneEach archive es := fun r => (List.pairwise_cons.1 (hone r)).2
    have hs := step_notAgain archive addText e p es hone h
    have hf := step_find archive addText (fun _ => by simp [addText]) e p es h r
    rw [locateTgz_cons archive e es p _ rfl, ← hf]
    split
    · rename_i hb
      refine find_none_of_found _ _ _ r ?_
      cases r
      · exact filled_isSome _ hb.1
      · exact filled_isSome _ hb.2.1
      · exact filled_isSome _ hb.2.2
    · exact ih _ hone' hs

theorem notAgain_empty (archive : Str) (es : List Entry) : NotAgain archive {} es := by
  intro r hr
  cases r <;> simp [Plan.get] at hr

theorem find_role_iff (archive : Str) (es : List Entry) (hone : OneEach archive es) (r : Role)
    (e : Entry) :
    (es.find? fun e => isNamed archive r.file e.name) = some e ↔
      e ∈ es ∧ AtTop archive r.file e.name := by
  constructor
  · intro h
    have h' := List.find?_some h
    exact ⟨List.mem_of_find?_eq_some h, (isNamed_iff _ _ _).1 h'⟩
  · rintro ⟨hm, ht⟩
    have hp := hone r
    induction es with
    | nil => simp at hm
    | cons x xs ih =>
      obtain ⟨h1, h2⟩ := List.pairwise_cons.1 hp
      rcases List.mem_cons.1 hm with rfl | hm
      · rw [List.find?_cons_of_pos]
        exact (isNamed_iff _ _ _).2 ht
      · rw [List.find?_cons_of_neg, ih (fun r => (List.pairwise_cons.1 (hone r)).2) hm h2]
        rw [isNamed_iff]
        exact fun hx => h1 e hm ⟨hx, ht⟩

/-- **C51**, the files of a zip archive: exactly the SQL files and CSV files at its top or in the
directory named like it, each once. -/
theorem planZip_files (archive : Str) (es : List Entry) (ha : '/' ∉ archive)
    (hm : archive ≠ b!"__MACOSX") (hone : OneEach archive es) (ht : ∀ e ∈ es, Tidy e.name) :
    (∀ (r : Role) (e : Entry), (planZip archive es).get r = some e ↔
      e ∈ es ∧ AtTop archive r.file e.name) ∧
    (∀ e, e ∈ (planZip archive es).csvs ↔ e ∈ es ∧ TopCsv archive e.name) ∧
    (planZip archive es).csvs.Sublist es := by
  have mac : ∀ (f n : Str), '/' ∉ f → AtTop archive f n → hasPrefix n b!"__MACOSX/" = false := by
    intro f n hf h
    rw [← Bool.not_eq_true]
    intro hp
    have : ∃ t, n = b!"__MACOSX/" ++ t := by
      unfold hasPrefix at hp
      obtain ⟨t, ht⟩ := List.isPrefixOf_iff_prefix.1 hp
      exact ⟨t, ht.symm⟩
    obtain ⟨t, rfl⟩ := this
    rcases h with h | h
    · exact hf (by rw [← h]; simp)
    · have h' := congrArg (List.takeWhile (· ≠ '/')) h
      rw [List.takeWhile_append_of_pos (l₁ := archive)] at h'
      · simp at h'
        exact hm h'.symm
      · intro c hc
        simp only [ne_eq, decide_not, Bool.not_eq_eq_eq_not, Bool.not_true, decide_eq_false_iff_not]
        rintro rfl
        exact ha hc
  refine ⟨?_, ?_, List.filter_sublist⟩
  · intro r e
    have : (planZip archive es).get r = (locateZip archive es {}).get r := by cases r <;> rfl
    rw [this, locateZip_get archive es (fun e _ r h => mac _ _ (role_noslash r)
      ((isNamed_iff _ _ _).1 h)) {} hone (notAgain_empty _ _) r,
      ← find_role_iff archive es hone]
    cases r <;> simp [Plan.get]
  · intro e
    simp only [planZip, List.mem_filter, Bool.and_eq_true, Bool.not_eq_true']
    constructor
    · rintro ⟨h1, _, h3⟩
      exact ⟨h1, (isTopCsv_iff _ _ (ht e h1)).1 h3⟩
    · rintro ⟨h1, h2⟩
      refine ⟨h1, ?_, (isTopCsv_iff _ _ (ht e h1)).2 h2⟩
      obtain ⟨f, hf, _, h⟩ := h2
      exact mac f _ hf h

/-- **C51**, the files of a tar archive. -/
theorem planTgz_files (archive : Str) (es : List Entry) (hone : OneEach archive es)
    (ht : ∀ e ∈ es, Tidy e.name) :
    (∀ (r : Role) (e : Entry), (planTgz archive es).get r = some e ↔
      e ∈ es ∧ AtTop archive r.file e.name) ∧
    (∀ e, e ∈ (planTgz archive es).csvs ↔ e ∈ es ∧ TopCsv archive e.name) ∧
    (planTgz archive es).csvs.Sublist es := by
  refine ⟨?_, ?_, List.filter_sublist⟩
  · intro r e
    have : (planTgz archive es).get r = (locateTgz archive es {}).get r := by cases r <;> rfl
    rw [this, locateTgz_get archive es {} hone (notAgain_empty _ _) r,
      ← find_role_iff archive es hone]
    cases r <;> simp [Plan.get]
  · intro e
    simp only [planTgz, List.mem_filter]
    constructor
    · rintro ⟨h1, h3⟩
      exact ⟨h1, (isTopCsv_iff _ _ (ht e h1)).1 h3⟩
    · rintro ⟨h1, h2⟩
      exact ⟨h1, (isTopCsv_iff _ _ (ht e h1)).2 h2⟩

/-- **C51**, the files of a directory (whose file names are distinct). -/
theorem planDir_files (files : List Entry) (hn : (files.map Entry.name).Nodup) :
    (∀ (r : Role) (e : Entry), (planDir files).get r = some e ↔ e ∈ files ∧ e.name = r.file) ∧
    (∀ e, e ∈ (planDir files).csvs ↔ e ∈ files ∧ FileSpec.EndsWith e.name b!".csv") ∧
    (planDir files).csvs.Sublist files := by
  have key : ∀ (f : Str) (e : Entry),
      (files.find? (·.name = f)) = some e ↔ e ∈ files ∧ e.name = f := by
    intro f e
    constructor
    · intro h
      exact ⟨List.mem_of_find?_eq_some h, by simpa using List.find?_some h⟩
    · rintro ⟨hm, rfl⟩
      induction files with
      | nil => simp at hm
      | cons x xs ih =>
        simp only [List.map_cons, List.nodup_cons] at hn
        rcases List.mem_cons.1 hm with rfl | hm
        · simp
        · rw [List.find?_cons_of_neg, ih hn.2 hm]
          simp only [decide_eq_true_eq]
          intro h
          exact hn.1 (by rw [h]; exact List.mem_map_of_mem hm)
  refine ⟨?_, ?_, List.filter_sublist⟩
  · intro r e
    cases r <;> exact key _ e
  · intro e
    simp [planDir, hasSuffix_iff]

/-- **C51 fails** for archives made with `tar -C dump -czf dump.tgz .`: their entries are named
`./schema.sql` and so on; the SQL files are skipped without a word, while the CSV files are
loaded. -/
theorem load_dot_archive_refuted :
    ¬ ∀ (archive : Str) (es : List Entry), ∀ e ∈ es, clean e.name = b!"schema.sql" → e.text ≠ [] →
      .sql e.name e.text ∈ (runPlan (fun _ => true) none (planTgz archive es)).1 := by
  intro h
  have := h b!"dump"
    [⟨b!"./schema.sql", b!"CREATE TABLE t (a INT);"⟩, ⟨b!"./t.csv", b!"a\n1\n"⟩]
    ⟨b!"./schema.sql", b!"CREATE TABLE t (a INT);"⟩ (by simp) (by decide +kernel) (by simp)
  revert this
  decide +kernel

/-- The CSV file of that archive is loaded. -/
example : (runPlan (fun _ => true) none (planTgz b!"dump"
    [⟨b!"./schema.sql", b!"CREATE TABLE t (a INT);"⟩, ⟨b!"./t.csv", b!"a\n1\n"⟩])).1 =
    [.csv b!"./t.csv" b!"a\n1\n"] := by decide +kernel

/-- Two schema files in a tar archive are both run, in one go; in a zip archive only the later
one. -/
example : (planTgz b!"dump" [⟨b!"schema.sql", b!"A;"⟩, ⟨b!"dump/schema.sql", b!"B;"⟩]).schema =
      some ⟨b!"dump/schema.sql", b!"A;B;"⟩ ∧
    (planZip b!"dump" [⟨b!"schema.sql", b!"A;"⟩, ⟨b!"dump/schema.sql", b!"B;"⟩]).schema =
      some ⟨b!"dump/schema.sql", b!"B;"⟩ := by decide +kernel

/-! ### An instance -/

/-- A zip archive as `dump` writes it, in an unhelpful order, with other files. -/
def sampleEntries : List Entry :=
  [⟨b!"dump/constraints.sql", b!"C;"⟩, ⟨b!"dump/b.csv", b!"x"⟩, ⟨b!"dump/old/a.csv", b!"x"⟩,
    ⟨b!"dump/indexes.sql", b!"I;"⟩, ⟨b!"dump/a.csv", b!"x"⟩, ⟨b!"dump/schema.sql", b!"S;"⟩]

example : (runPlan (fun _ => true) (some List.reverse) (planZip b!"dump" sampleEntries)).1 =
    [.sql b!"dump/schema.sql" b!"S;", .csv b!"dump/a.csv" b!"x", .csv b!"dump/b.csv" b!"x",
      .sql b!"dump/indexes.sql" b!"I;", .sql b!"dump/constraints.sql" b!"C;"] := by decide +kernel

example : ∀ f ∈ some (List.reverse (α := Job)), ∀ l, (f l).Perm l := by
  simp only [Option.mem_def, Option.some.injEq, forall_eq']
  exact List.reverse_perm

example : OneEach b!"dump" sampleEntries := by
  intro r
  have h : sampleEntries.Pairwise fun a b => isNamed b!"dump" r.file a.name = false ∨
      isNamed b!"dump" r.file b.name = false := by
    cases r <;> decide +kernel
  refine h.imp fun h => ?_
  rw [← isNamed_iff, ← isNamed_iff]
  rintro ⟨h1, h2⟩
  rcases h with h | h <;> simp_all

example : Tidy b!"dump/old/a.csv" :=
  ⟨[b!"dump", b!"old", b!"a.csv"], by simp, by unfold RealPart; decide, by decide⟩

example : (runPlan (fun j => j ≠ .csv b!"dump/a.csv" b!"x") none
    (planZip b!"dump" sampleEntries)).1 =
    [.sql b!"dump/schema.sql" b!"S;", .csv b!"dump/b.csv" b!"x", .csv b!"dump/a.csv" b!"x"] := by
  decide +kernel

end Sqddl.Load
