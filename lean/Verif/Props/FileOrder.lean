import Verif.Model.MigrationFiles
import Verif.Props.Files
import Verif.Props.PqArray

/-!
# Generated files run in the order in which they were generated (C39)

File names are compared character by character, like a directory listing is sorted.
-/

namespace Sqddl.Files
open Go FileSpec

theorem append_lt (p : Str) {a b : Str} (h : a < b) : p ++ a < p ++ b := by
  induction p with
  | nil => exact h
  | cons c p ih => exact List.cons_lt_cons_iff.2 (Or.inr ⟨rfl, ih⟩)

theorem pad2_digits : ∀ n < 100, pad2 n = [Char.ofNat (48 + n / 10), Char.ofNat (48 + n % 10)] := by
  decide +kernel

theorem digit_lt : ∀ a < 10, ∀ b < 10, a < b → Char.ofNat (48 + a) < Char.ofNat (48 + b) := by
  decide +kernel

theorem pad2_lt {i j : Nat} (h : i < j) (hj : j < 100) (a b : Str) : pad2 i ++ a < pad2 j ++ b := by
  rw [pad2_digits i (by omega), pad2_digits j hj]
  simp only [List.cons_append, List.nil_append]
  by_cases h1 : i / 10 < j / 10
  · exact List.cons_lt_cons_iff.2 (Or.inl (digit_lt _ (by omega) _ (by omega) h1))
  · have h2 : i / 10 = j / 10 := by omega
    rw [h2]
    refine List.cons_lt_cons_iff.2 (Or.inr ⟨rfl, List.cons_lt_cons_iff.2 (Or.inl ?_)⟩)
    exact digit_lt _ (by omega) _ (by omega) (by omega)

/-- The name of a file. -/
def fileName (pre : Str) (n : Nat) (suffix : Str) : Str := pre ++ b!"_" ++ pad2 n ++ suffix

theorem fileName_lt (pre : Str) {i j : Nat} (h : i < j) (hj : j < 100) (a b : Str) :
    fileName pre i a < fileName pre j b := by
  unfold fileName
  rw [List.append_assoc _ (pad2 i), List.append_assoc _ (pad2 j)]
  exact append_lt _ (pad2_lt h hj a b)

theorem fileName_lt_suffix (pre : Str) (i : Nat) {a b : Str} (h : a < b) :
    fileName pre i a < fileName pre i b := by
  unfold fileName
  exact append_lt _ h

/-- C39: with fewer than 100 steps, the names of the files are in strictly increasing order. -/
theorem numbered_sorted (pre : Str) (steps : List (List File)) (hlen : steps.length < 100)
    (hstep : ∀ st ∈ steps, st.Pairwise fun f g => f.1 < g.1) :
    ((numbered pre steps).map (·.1)).Pairwise (· < ·) := by
  unfold numbered
  rw [List.map_flatMap, List.flatMap_def, List.pairwise_flatten]
  constructor
  · intro l hl
    obtain ⟨p, hp, rfl⟩ := List.mem_map.1 hl
    rw [List.map_map, List.pairwise_map]
    have h1 : p.1 ∈ steps := by
      obtain ⟨st, i⟩ := p
      exact (List.mem_zipIdx hp).2.2 ▸ List.getElem_mem _
    exact (hstep p.1 h1).imp fun h => fileName_lt_suffix pre _ h
  · rw [List.pairwise_map]
    have h1 : (steps.zipIdx).Pairwise fun p q => p.2 < q.2 := by
      rw [← List.pairwise_map (f := Prod.snd) (R := fun a b => a < b), List.zipIdx_map_snd,
        List.range'_eq_map_range]
      rw [List.pairwise_map]
      exact List.pairwise_lt_range.imp fun h => by omega
    refine List.Pairwise.imp_of_mem ?_ h1
    rintro ⟨s, i⟩ ⟨t, j⟩ hp hq hlt x hx y hy
    rw [List.map_map] at hx hy
    obtain ⟨f, _, rfl⟩ := List.mem_map.1 hx
    obtain ⟨g, _, rfl⟩ := List.mem_map.1 hy
    have h2 := List.snd_lt_of_mem_zipIdx hq
    dsimp only at hlt h2
    exact fileName_lt pre (by omega) (by omega) f.1 g.1

/-- C39 fails for 100 steps or more: whatever the files are called, the first file of step 100 is
sorted before the first one of step 99. -/
theorem numbered_order_refuted (pre : Str) (steps : List (List File)) (hlen : steps.length ≥ 100)
    (hne : ∀ st ∈ steps, st ≠ []) : ¬ ((numbered pre steps).map (·.1)).Pairwise (· < ·) := by
  intro h
  unfold numbered at h
  rw [List.map_flatMap, List.flatMap_def, List.pairwise_flatten] at h
  have h2 := h.2
  rw [List.pairwise_map] at h2
  have h3 := List.pairwise_iff_getElem.1 h2 98 99 (by simp; omega) (by simp; omega) (by omega)
  rw [List.getElem_zipIdx, List.getElem_zipIdx] at h3
  cases e1 : steps[98] with
  | nil => exact hne _ (List.getElem_mem _) e1
  | cons f r =>
    cases e2 : steps[99] with
    | nil => exact hne _ (List.getElem_mem _) e2
    | cons g r' =>
      have h4 := h3 (fileName pre 99 f.1)
        (by rw [List.map_map]; exact List.mem_map.2 ⟨f, by simp [e1], rfl⟩)
        (fileName pre 100 g.1)
        (by rw [List.map_map]; exact List.mem_map.2 ⟨g, by simp [e2], rfl⟩)
      have h5 : fileName pre 100 g.1 < fileName pre 99 f.1 := by
        unfold fileName
        rw [List.append_assoc _ (pad2 100), List.append_assoc _ (pad2 99)]
        refine append_lt _ ?_
        rw [show pad2 100 = ['1', '0', '0'] from by decide +kernel,
          show pad2 99 = ['9', '9'] from by decide +kernel]
        exact List.cons_lt_cons_iff.2 (Or.inl (by decide))
      exact List.lt_irrefl _ (List.lt_trans h4 h5)

/-! ## The files that `migrate` picks up -/

/-- Files whose names contain no slash, where the first file of every step is a migration and the
others are undo files. -/
structure StepsOk (pre : Str) (steps : List (List File)) : Prop where
  pre : '/' ∉ pre
  names : ∀ st ∈ steps, ∀ f ∈ st, '/' ∉ f.1 ∧ f.1.head? = some '_'
  first : ∀ st ∈ steps, ∃ f r, st = f :: r ∧ EndsWith f.1 b!".sql" ∧ ¬ EndsWith f.1 b!".undo.sql" ∧
    ∀ g ∈ r, EndsWith g.1 b!".undo.sql"
  order : ∀ st ∈ steps, st.Pairwise fun f g => f.1 < g.1

/-- The first file of every step. -/
def forwardFiles (pre : Str) (steps : List (List File)) : List File :=
  steps.zipIdx.map fun p => (fileName pre (p.2 + 1) (p.1.headD ([], [])).1, (p.1.headD ([], [])).2)

theorem noslash_named {f b : Str} (h : '/' ∉ f) : IsNamed f b ↔ f = b := by
  constructor
  · rintro (h1 | ⟨a, h1⟩)
    · exact h1
    · exact absurd (by rw [h1]; simp) h
  · exact Or.inl

theorem noslash_repeatable {f : Str} (h : '/' ∉ f) : ¬ Repeatable f := by
  rintro ⟨a, h1⟩
  exact h (by rw [h1]; simp)

theorem endsWith_append {a b suf : Str} (h : EndsWith b suf) : EndsWith (a ++ b) suf := by
  obtain ⟨c, rfl⟩ := h
  exact ⟨a ++ c, by simp⟩

/-- The suffix does not reach beyond an underscore. -/
theorem endsWith_of_append {a b suf : Str} (hs : '_' ∉ suf) (h : EndsWith (a ++ '_' :: b) suf) :
    EndsWith b suf := by
  obtain ⟨c, h⟩ := h
  rcases List.append_eq_append_iff.1 h with ⟨d, h1, h2⟩ | ⟨d, h1, h2⟩
  · cases d with
    | nil =>
      rw [List.nil_append] at h2
      exact absurd (by rw [← h2]; simp) hs
    | cons x d =>
      injection h2 with _ h2
      exact ⟨d, h2⟩
  · exact absurd (by rw [h2]; simp) hs

theorem digits_noslash (n : Nat) : '/' ∉ pad2 n := by
  have h : '/' ∉ Nat.toDigits 10 n := by
    intro h
    have := Nat.isDigit_of_mem_toDigits (by omega) (by omega) h
    revert this; decide
  unfold pad2 itoa
  split
  · simp [h]
  · exact h

theorem fileName_noslash {pre : Str} (hp : '/' ∉ pre) (n : Nat) {suf : Str} (hs : '/' ∉ suf) :
    '/' ∉ fileName pre n suf := by
  unfold fileName
  simp only [List.mem_append, not_or]
  exact ⟨⟨⟨hp, by decide⟩, digits_noslash n⟩, hs⟩

theorem fileName_migration {pre : Str} (hp : '/' ∉ pre) (n : Nat) {suf : Str} (hs : '/' ∉ suf)
    (h1 : EndsWith suf b!".sql") (h2 : ¬ EndsWith suf b!".undo.sql") (h3 : suf.head? = some '_') :
    IsMigration (fileName pre n suf) := by
  have hn := fileName_noslash hp n hs
  have hu : ∀ b : Str, '_' ∉ b → ¬ IsNamed (fileName pre n suf) b := by
    intro b hb h
    rw [noslash_named hn] at h
    exact hb (by rw [← h]; simp [fileName])
  refine ⟨endsWith_append h1, ?_, hu _ (by decide), hu _ (by decide), hu _ (by decide)⟩
  intro h
  cases suf with
  | nil => cases h3
  | cons c suf =>
    injection h3 with h3
    subst h3
    obtain ⟨a, h4⟩ := endsWith_of_append (by decide) h
    exact h2 ⟨'_' :: a, by rw [h4]; rfl⟩

theorem filter_flatMap_head {α β : Type} (xs : List α) (g : α → List β) (k : α → β) (p : β → Bool)
    (h : ∀ x ∈ xs, (g x).filter p = [k x]) : (xs.flatMap g).filter p = xs.map k := by
  induction xs with
  | nil => rfl
  | cons x xs ih =>
    rw [List.flatMap_cons, List.filter_append, h x (by simp), ih fun y hy => h y (by simp [hy])]
    rfl

/-- `migrate` runs the first file of every step, and no other file. -/
theorem numbered_forward {pre : Str} {steps : List (List File)} (h : StepsOk pre steps) :
    sortAndFilter ((numbered pre steps).map (·.1)) = (forwardFiles pre steps).map (·.1) := by
  rw [sortAndFilter_eq]
  have hmem : ∀ p ∈ steps.zipIdx, p.1 ∈ steps := fun p hp =>
    (List.mem_zipIdx hp).2.2 ▸ List.getElem_mem _
  have hr : ∀ f ∈ (numbered pre steps).map (·.1), isRepeatable f = false := by
    intro f hf
    obtain ⟨x, hx, rfl⟩ := List.mem_map.1 hf
    obtain ⟨p, hp, hx⟩ := List.mem_flatMap.1 hx
    obtain ⟨g, hg, rfl⟩ := List.mem_map.1 hx
    have := noslash_repeatable (fileName_noslash h.pre (p.2 + 1) (h.names _ (hmem p hp) g hg).1)
    rw [← isRepeatable_iff] at this
    exact Bool.eq_false_iff.2 this
  have e1 : ((numbered pre steps).map (·.1)).filter
      (fun f => isMigrationFile f && isRepeatable f) = [] := by
    rw [List.filter_eq_nil_iff]
    intro f hf
    simp [hr f hf]
  have e2 : ((numbered pre steps).map (·.1)).filter
      (fun f => isMigrationFile f && !isRepeatable f) =
      ((numbered pre steps).map (·.1)).filter isMigrationFile := by
    refine List.filter_congr fun f hf => ?_
    rw [hr f hf]; simp
  rw [e1, e2, List.append_nil]
  unfold numbered forwardFiles
  rw [List.map_flatMap, List.map_map]
  refine filter_flatMap_head _ _ _ _ fun p hp => ?_
  obtain ⟨f, r, e, h1, h2, h3⟩ := h.first p.1 (hmem p hp)
  have hn := h.names p.1 (hmem p hp)
  rw [e] at hn ⊢
  rw [List.map_map, List.map_cons, List.filter_cons_of_pos]
  · rw [List.filter_eq_nil_iff.2]
    · simp only [Function.comp_apply, e, List.headD_cons]
      rfl
    · intro x hx
      obtain ⟨g, hg, rfl⟩ := List.mem_map.1 hx
      rw [isMigrationFile_iff]
      intro hm
      exact hm.2.1 (endsWith_append (h3 g hg))
  · rw [isMigrationFile_iff]
    exact fileName_migration h.pre _ (hn f (by simp)).1 h1 h2 (hn f (by simp)).2

/-! ## The names are distinct, and the contents can be found by name -/

theorem pad2_inj {i j : Nat} (h : pad2 i = pad2 j) : i = j := by
  have key : ∀ n, parseDigits (pad2 n) = some n := by
    intro n
    unfold pad2
    split
    · rename_i hn
      revert n
      decide +kernel
    · exact Sqddl.PqArray.parseDigits_toDigits n
  have := key i
  rw [h, key j] at this
  injection this with this
  exact this.symm

theorem pad2_isDigit (n : Nat) : ∀ c ∈ pad2 n, c.isDigit = true := by
  have h : ∀ c ∈ Nat.toDigits 10 n, c.isDigit = true := fun c hc =>
    Nat.isDigit_of_mem_toDigits (by omega) (by omega) hc
  unfold pad2 itoa
  split
  · intro c hc
    rcases List.mem_cons.1 hc with rfl | hc
    · rfl
    · exact h c hc
  · exact h

theorem takeWhile_digits {a b : Str} (ha : ∀ c ∈ a, c.isDigit = true) (hb : b.head? = some '_') :
    (a ++ b).takeWhile Char.isDigit = a := by
  rw [List.takeWhile_append_of_pos ha]
  cases b with
  | nil => cases hb
  | cons c b =>
    injection hb with hb
    subst hb
    rw [List.takeWhile_cons_of_neg (by decide), List.append_nil]

theorem fileName_inj {pre : Str} {i j : Nat} {a b : Str} (ha : a.head? = some '_')
    (hb : b.head? = some '_') (h : fileName pre i a = fileName pre j b) : i = j ∧ a = b := by
  unfold fileName at h
  rw [List.append_assoc _ (pad2 i), List.append_assoc _ (pad2 j)] at h
  have h := List.append_cancel_left h
  have e := congrArg (List.takeWhile Char.isDigit) h
  rw [takeWhile_digits (pad2_isDigit i) ha, takeWhile_digits (pad2_isDigit j) hb] at e
  rw [e] at h
  exact ⟨pad2_inj e, List.append_cancel_left h⟩

/-- C39: no two files have the same name, however many there are. -/
theorem numbered_nodup {pre : Str} {steps : List (List File)}
    (hn : ∀ st ∈ steps, ∀ f ∈ st, f.1.head? = some '_')
    (hstep : ∀ st ∈ steps, st.Pairwise fun f g => f.1 < g.1) :
    ((numbered pre steps).map (·.1)).Nodup := by
  have hmem : ∀ p ∈ steps.zipIdx, p.1 ∈ steps := fun p hp =>
    (List.mem_zipIdx hp).2.2 ▸ List.getElem_mem _
  unfold numbered
  rw [List.map_flatMap, List.flatMap_def, List.Nodup, List.pairwise_flatten]
  constructor
  · intro l hl
    obtain ⟨p, hp, rfl⟩ := List.mem_map.1 hl
    rw [List.map_map, List.pairwise_map]
    refine (hstep p.1 (hmem p hp)).imp fun h e => ?_
    have e := List.append_cancel_left e
    rw [e] at h
    exact List.lt_irrefl _ h
  · rw [List.pairwise_map]
    have h1 : (steps.zipIdx).Pairwise fun p q => p.2 < q.2 := by
      rw [← List.pairwise_map (f := Prod.snd) (R := fun a b => a < b), List.zipIdx_map_snd,
        List.range'_eq_map_range]
      rw [List.pairwise_map]
      exact List.pairwise_lt_range.imp fun h => by omega
    refine List.Pairwise.imp_of_mem ?_ h1
    rintro ⟨s, i⟩ ⟨t, j⟩ hp hq hlt x hx y hy rfl
    rw [List.map_map] at hx hy
    obtain ⟨f, hf, e1⟩ := List.mem_map.1 hx
    obtain ⟨g, hg, e2⟩ := List.mem_map.1 hy
    have := (fileName_inj (hn _ (hmem _ hp) f hf) (hn _ (hmem _ hq) g hg) (e1.trans e2.symm)).1
    dsimp only at this hlt
    omega

theorem numbered_mem {pre : Str} {steps : List (List File)} {g : File}
    (hg : g ∈ numbered pre steps) :
    ∃ n, ∃ st ∈ steps, ∃ x ∈ st, g.1 = pre ++ b!"_" ++ pad2 n ++ x.1 := by
  unfold numbered at hg
  obtain ⟨p, hp, hg⟩ := List.mem_flatMap.1 hg
  obtain ⟨x, hx, rfl⟩ := List.mem_map.1 hg
  exact ⟨p.2 + 1, p.1, (List.mem_zipIdx' hp).2 ▸ List.getElem_mem _, x, hx, rfl⟩

theorem numbered_length {pre : Str} {steps : List (List File)} (h : ∀ st ∈ steps, st ≠ []) :
    steps.length ≤ (numbered pre steps).length := by
  have key : ∀ (ys : List (List File × Nat)), (∀ y ∈ ys, y.1 ≠ []) → ys.length ≤
      (ys.flatMap fun p => p.1.map fun f =>
        ((pre ++ b!"_" ++ pad2 (p.2 + 1) ++ f.1, f.2) : File)).length := by
    intro ys
    induction ys with
    | nil => intro _; simp
    | cons y ys ih =>
      intro hy
      have h1 := ih fun y h => hy y (by simp [h])
      have h2 : 0 < y.1.length := List.length_pos_iff.2 (hy y (by simp))
      rw [List.flatMap_cons, List.length_append, List.length_map, List.length_cons]
      omega
  have := key steps.zipIdx fun y hy => h _ ((List.mem_zipIdx' hy).2 ▸ List.getElem_mem _)
  rwa [List.length_zipIdx] at this

theorem StepsOk.nodup {pre : Str} {steps : List (List File)} (h : StepsOk pre steps) :
    ((numbered pre steps).map (·.1)).Nodup :=
  numbered_nodup (fun st hst f hf => (h.names st hst f hf).2) h.order

theorem StepsOk.ne_nil {pre : Str} {steps : List (List File)} (h : StepsOk pre steps) :
    ∀ st ∈ steps, st ≠ [] := by
  intro st hst e
  obtain ⟨f, r, h1, _⟩ := h.first st hst
  rw [e] at h1
  cases h1

/-- A directory that contains exactly these files, listed in lexical order. -/
structure Listing (files : List File) (names : List Str) : Prop where
  perm : names.Perm (files.map (·.1))
  sorted : names.Pairwise (· < ·)

theorem sorted_unique {xs ys : List Str} (h : xs.Perm ys) (hx : xs.Pairwise (· < ·))
    (hy : ys.Pairwise (· < ·)) : xs = ys :=
  h.eq_of_pairwise (le := (· < ·))
    (fun _ _ _ _ h1 h2 => absurd (List.lt_trans h1 h2) (List.lt_irrefl _)) hx hy

/-- C39: fewer than 100 steps are picked up from the directory in the order in which they were
generated. -/
theorem listed_in_order {pre : Str} {steps : List (List File)} (h : StepsOk pre steps)
    (hlen : steps.length < 100) {names : List Str} (hl : Listing (numbered pre steps) names) :
    names = (numbered pre steps).map (·.1) ∧
    sortAndFilter names = (forwardFiles pre steps).map (·.1) := by
  have e := sorted_unique hl.perm hl.sorted (numbered_sorted pre steps hlen h.order)
  exact ⟨e, by rw [e]; exact numbered_forward h⟩

theorem lookup_nodup {files : List File} (hn : (files.map (·.1)).Nodup) {f c : Str}
    (h : (f, c) ∈ files) : files.lookup f = some c := by
  induction files with
  | nil => cases h
  | cons x xs ih =>
    obtain ⟨g, d⟩ := x
    rw [List.map_cons, List.nodup_cons] at hn
    rw [List.lookup_cons]
    rcases List.mem_cons.1 h with h' | h''
    · injection h' with h1 h2
      subst h1 h2
      simp
    · have : f ≠ g := by
        rintro rfl
        exact hn.1 (List.mem_map.2 ⟨(f, c), by assumption, rfl⟩)
      rw [beq_eq_false_iff_ne.2 this]
      exact ih hn.2 h''

theorem forward_subset {pre : Str} {steps : List (List File)} (h : StepsOk pre steps) :
    ∀ x ∈ forwardFiles pre steps, x ∈ numbered pre steps := by
  intro x hx
  obtain ⟨p, hp, rfl⟩ := List.mem_map.1 hx
  obtain ⟨f, r, e, -⟩ := h.first p.1 ((List.mem_zipIdx hp).2.2 ▸ List.getElem_mem _)
  refine List.mem_flatMap.2 ⟨p, hp, List.mem_map.2 ⟨f, by simp [e], ?_⟩⟩
  rw [e]
  rfl

/-- The contents of the files that are run. -/
theorem lookup_forward {pre : Str} {steps : List (List File)} (h : StepsOk pre steps) :
    ((forwardFiles pre steps).map (·.1)).mapM (fun f => (numbered pre steps).lookup f) =
      some (steps.map fun st => (st.headD ([], [])).2) := by
  have hn := numbered_nodup (pre := pre) (fun st hst f hf => (h.names st hst f hf).2) h.order
  have h1 : ∀ xs : List File, (∀ x ∈ xs, x ∈ numbered pre steps) →
      (xs.map (·.1)).mapM (fun f => (numbered pre steps).lookup f) = some (xs.map (·.2)) := by
    intro xs
    induction xs with
    | nil => intro _; rfl
    | cons x xs ih =>
      intro hx
      rw [List.map_cons, List.mapM_cons, lookup_nodup hn (f := x.1) (c := x.2) (hx x (by simp)),
        ih fun y hy => hx y (by simp [hy])]
      rfl
  rw [h1 _ (forward_subset h)]
  unfold forwardFiles
  rw [List.map_map]
  congr 1
  have : ∀ k, (steps.zipIdx k).map (fun p : List File × Nat => (p.1.headD ([], [])).2) =
      steps.map fun st => (st.headD ([], [])).2 := by
    intro k
    have e := congrArg (List.map fun st : List File => (st.headD ([], [])).2)
      (List.zipIdx_map_fst k steps)
    rw [List.map_map] at e
    exact e
  exact this 0

end Sqddl.Files
