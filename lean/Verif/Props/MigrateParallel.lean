import Verif.Spec.MigrateParallel

/-!
# C94: several `sqddl migrate` at the same time
-/

namespace Sqddl.MigrateParallel
open MigrateParallelSpec

theorem put_same {α : Type} (f : Nat → α) (i : Nat) (x : α) : put f i x i = x := by simp [put]

theorem put_other {α : Type} (f : Nat → α) {i j : Nat} (x : α) (h : j ≠ i) : put f i x j = f j := by
  simp [put, h]

/-- What a command has left to do. -/
def left : Pc → List Str
  | .todo bs => bs.flatten
  | _ => []

/-- What holds in every state: what a command has left it has not run, was given to it and is
recorded only if another command recorded it after the read. -/
structure Inv (u : Setup) (h0 : List Str) (s : State) : Prop where
  hist : s.hist = h0 ++ s.log.map Prod.snd
  nodup : ∀ i, (left (s.pcs i)).Nodup
  given : ∀ i f, f ∈ left (s.pcs i) → f ∈ u.files i ∧ f ∉ h0
  own : ∀ i f, (i, f) ∈ s.log → f ∉ left (s.pcs i)
  once : ∀ i f, s.log.count (i, f) ≤ 1
  old : ∀ i f, (i, f) ∈ s.log → f ∉ h0 ∧ f ∈ u.files i
  begun : ∀ i f, (i, f) ∈ s.log → s.pcs i ≠ .start

theorem count_pairs (i j : Nat) (f : Str) (b : List Str) :
    (b.map fun g => (j, g)).count (i, f) = if i = j then b.count f else 0 := by
  induction b with
  | nil => simp
  | cons g b ih =>
    simp only [List.map_cons, List.count_cons, ih]
    by_cases h : i = j
    · subst h; simp
    · have hj : ¬ j = i := fun e => h e.symm
      simp [h, hj]

theorem Inv.step {u : Setup} (hu : Proper u) {h0 : List Str} {s : State} (h : Inv u h0 s) (e : Event) :
    Inv u h0 (step u s e) := by
  cases e with
  | read i =>
    unfold MigrateParallel.step
    dsimp only
    split
    · rename_i hs
      have hnew : left (.todo (u.batches i ((u.files i).filter fun f => !s.hist.contains f))) =
          (u.files i).filter fun f => !s.hist.contains f := (hu i).2 _
      refine ⟨h.hist, fun j => ?_, fun j f hf => ?_, fun j f hf => ?_, h.once, h.old, fun j f hf => ?_⟩
      · by_cases hj : j = i
        · subst hj
          simp only [put_same]
          rw [hnew]
          exact (hu j).1.filter _
        · simp only [put_other _ _ hj]; exact h.nodup j
      · by_cases hj : j = i
        · subst hj
          simp only [put_same] at hf
          rw [hnew, List.mem_filter] at hf
          refine ⟨hf.1, fun h0m => ?_⟩
          have : f ∈ s.hist := by rw [h.hist]; simp [h0m]
          simp [this] at hf
        · simp only [put_other _ _ hj] at hf; exact h.given j f hf
      · by_cases hj : j = i
        · subst hj
          exact absurd hs (h.begun j f hf)
        · simp only [put_other _ _ hj]; exact h.own j f hf
      · by_cases hj : j = i
        · subst hj; simp [put_same]
        · simp only [put_other _ _ hj]; exact h.begun j f hf
    · exact h
  | batch i ok =>
    unfold MigrateParallel.step
    dsimp only
    split
    · rename_i b bs hs
      have hleft : left (s.pcs i) = b ++ bs.flatten := by rw [hs]; simp [left]
      split
      · have hnd := h.nodup i
        rw [hleft, List.nodup_append] at hnd
        refine ⟨?_, fun j => ?_, fun j f hf => ?_, fun j f hf => ?_, fun j f => ?_, fun j f hf => ?_,
          fun j f hf => ?_⟩
        · simp only [h.hist, List.map_append, List.map_map, List.append_assoc]
          congr 2
          simp [Function.comp_def]
        · by_cases hj : j = i
          · subst hj; simp only [put_same]; exact hnd.2.1
          · simp only [put_other _ _ hj]; exact h.nodup j
        · by_cases hj : j = i
          · subst hj
            simp only [put_same] at hf
            exact h.given j f (by rw [hleft]; simp only [left] at hf; simp [hf])
          · simp only [put_other _ _ hj] at hf; exact h.given j f hf
        · by_cases hj : j = i
          · subst hj
            simp only [put_same, left]
            simp only [List.mem_append, List.mem_map, Prod.mk.injEq, true_and, exists_eq_right] at hf
            intro hm
            rcases hf with hf | hf
            · exact h.own j f hf (by rw [hleft]; simp [hm])
            · exact hnd.2.2 f hf f hm rfl
          · simp only [put_other _ _ hj]
            simp only [List.mem_append, List.mem_map, Prod.mk.injEq] at hf
            rcases hf with hf | ⟨g, _, hg, _⟩
            · exact h.own j f hf
            · exact absurd hg.symm hj
        · simp only [List.count_append, count_pairs]
          by_cases hj : j = i
          · subst hj
            rw [if_pos rfl]
            by_cases hf : f ∈ b
            · have h1 : s.log.count (j, f) = 0 := List.count_eq_zero.mpr fun hm =>
                h.own j f hm (by rw [hleft]; simp [hf])
              have h2 := List.nodup_iff_count.mp hnd.1 f
              omega
            · have h1 := h.once j f
              have h2 : b.count f = 0 := List.count_eq_zero.mpr hf
              omega
          · rw [if_neg hj]; exact h.once j f
        · simp only [List.mem_append, List.mem_map, Prod.mk.injEq] at hf
          rcases hf with hf | ⟨g, hg, rfl, rfl⟩
          · exact h.old j f hf
          · have := h.given i g (by rw [hleft]; simp [hg])
            exact ⟨this.2, this.1⟩
        · by_cases hj : j = i
          · subst hj; simp [put_same]
          · simp only [put_other _ _ hj]
            simp only [List.mem_append, List.mem_map, Prod.mk.injEq] at hf
            rcases hf with hf | ⟨g, _, hg, _⟩
            · exact h.begun j f hf
            · exact absurd hg.symm hj
      · refine ⟨h.hist, fun j => ?_, fun j f hf => ?_, fun j f hf => ?_, h.once, h.old, fun j f hf => ?_⟩
        · by_cases hj : j = i
          · subst hj; simp [put_same, left]
          · simp only [put_other _ _ hj]; exact h.nodup j
        · by_cases hj : j = i
          · subst hj; simp [put_same, left] at hf
          · simp only [put_other _ _ hj] at hf; exact h.given j f hf
        · by_cases hj : j = i
          · subst hj; simp [put_same, left]
          · simp only [put_other _ _ hj]; exact h.own j f hf
        · by_cases hj : j = i
          · subst hj; simp [put_same]
          · simp only [put_other _ _ hj]; exact h.begun j f hf
    · exact h

theorem Inv.steps {u : Setup} (hu : Proper u) {h0 : List Str} (es : List Event) :
    ∀ s, Inv u h0 s → Inv u h0 (run u s es) := by
  induction es with
  | nil => intro s h; exact h
  | cons e es ih => intro s h; exact ih _ (h.step hu e)

theorem fresh_inv {u : Setup} {s : State} (hs : Fresh s) : Inv u s.hist s where
  hist := by simp [hs.1]
  nodup i := by rw [hs.2 i]; simp [left]
  given i f h := by rw [hs.2 i] at h; simp [left] at h
  own i f h := by rw [hs.1] at h; simp at h
  once i f := by rw [hs.1]; simp
  old i f h := by rw [hs.1] at h; simp at h
  begun i f h := by rw [hs.1] at h; simp at h

/-- Whatever the order of the steps: no command runs a file twice, or one that it was not given, or one
that was recorded before the commands began; and everything that took effect is recorded. -/
theorem parallel_own_once {u : Setup} (hu : Proper u) (s : State) (hs : Fresh s) (es : List Event)
    (i : Nat) (f : Str) :
    (run u s es).log.count (i, f) ≤ 1 ∧
    ((i, f) ∈ (run u s es).log → f ∉ s.hist ∧ f ∈ u.files i ∧ f ∈ (run u s es).hist) := by
  have h := (fresh_inv (u := u) hs).steps hu es
  refine ⟨h.once i f, fun hm => ⟨(h.old i f hm).1, (h.old i f hm).2, ?_⟩⟩
  rw [h.hist]
  exact List.mem_append_right _ (List.mem_map.mpr ⟨_, hm, rfl⟩)

/-- A command that read the history when a file was recorded does not run it, whatever the other
commands do. -/
theorem read_after_record {u : Setup} (hu : Proper u) (s : State) (hs : Fresh s) (es₁ es₂ : List Event)
    (i : Nat) (f : Str) (hf : f ∈ (run u s es₁).hist) (hi : (run u s es₁).pcs i = .start) :
    (i, f) ∉ (run u s (es₁ ++ .read i :: es₂)).log := by
  have h1 := (fresh_inv (u := u) hs).steps hu es₁
  have hrun : run u s (es₁ ++ .read i :: es₂) = run u (step u (run u s es₁) (.read i)) es₂ := by
    simp [run]
  rw [hrun]
  have key : ∀ (es : List Event) (t : State), t.pcs i ≠ .start → f ∉ left (t.pcs i) → (i, f) ∉ t.log →
      (i, f) ∉ (run u t es).log := by
    intro es
    induction es with
    | nil => intro t _ _ h; exact h
    | cons e es ih =>
      intro t hst hl hlog
      have go : (step u t e).pcs i ≠ .start ∧ f ∉ left ((step u t e).pcs i) ∧ (i, f) ∉ (step u t e).log := by
        unfold step
        cases e with
        | read j =>
          dsimp only
          split
          · rename_i hj
            have hij : i ≠ j := fun e => hst (e ▸ hj)
            exact ⟨by simpa [put_other _ _ hij] using hst, by simpa [put_other _ _ hij] using hl, hlog⟩
          · exact ⟨hst, hl, hlog⟩
        | batch j ok =>
          dsimp only
          split
          · rename_i b bs hj
            by_cases hij : i = j
            · subst hij
              rw [hj] at hl
              simp only [left, List.flatten_cons, List.mem_append, not_or] at hl
              split
              · refine ⟨by simp [put_same], by simpa [put_same, left] using hl.2, ?_⟩
                simp only [List.mem_append, List.mem_map, Prod.mk.injEq, true_and, exists_eq_right, not_or]
                exact ⟨hlog, hl.1⟩
              · exact ⟨by simp [put_same], by simp [put_same, left], hlog⟩
            · split
              · refine ⟨by simpa [put_other _ _ hij] using hst, by simpa [put_other _ _ hij] using hl, ?_⟩
                simp only [List.mem_append, List.mem_map, Prod.mk.injEq, not_or]
                exact ⟨hlog, fun ⟨_, _, e, _⟩ => hij e.symm⟩
              · exact ⟨by simpa [put_other _ _ hij] using hst, by simpa [put_other _ _ hij] using hl, hlog⟩
          · exact ⟨hst, hl, hlog⟩
      exact ih _ go.1 go.2.1 go.2.2
  have hstep : step u (run u s es₁) (.read i) =
      { run u s es₁ with
        pcs := put (run u s es₁).pcs i
          (.todo (u.batches i ((u.files i).filter fun f => !(run u s es₁).hist.contains f))) } := by
    unfold step
    simp only [hi]
  rw [hstep]
  refine key es₂ _ (by simp [put_same]) ?_ ?_
  · simp only [put_same, left]
    rw [(hu i).2, List.mem_filter]
    simp [hf]
  · intro hm
    exact h1.begun i f hm hi

/-- What additionally holds when no command reads while another one has work left. -/
structure Quiet (s : State) : Prop where
  one : ∀ i j, i ≠ j → ¬ Idle (s.pcs i) → Idle (s.pcs j)
  new : ∀ i f, f ∈ left (s.pcs i) → f ∉ s.hist
  times : ∀ f, times s f ≤ 1

theorem left_idle {p : Pc} {f : Str} (hp : Idle p) : f ∉ left p := by
  cases p with
  | todo bs => cases bs with
    | nil => simp [left]
    | cons b bs => exact absurd hp (by simp [Idle])
  | start => simp [left]
  | failed => simp [left]

theorem Quiet.step {u : Setup} (hu : Proper u) {h0 : List Str} {s : State} (h : Inv u h0 s) (q : Quiet s)
    (e : Event) (ha : ∀ i, e = .read i → ∀ j, j ≠ i → Idle (s.pcs j)) : Quiet (step u s e) := by
  cases e with
  | read i =>
    have ha := ha i rfl
    unfold MigrateParallel.step
    dsimp only
    split
    · rename_i hs
      refine ⟨fun j k hjk hj => ?_, fun j f hf => ?_, q.times⟩
      · by_cases h1 : j = i
        · subst h1
          simp only [put_other _ _ (fun e => hjk e.symm : k ≠ j)]
          exact ha k fun e => hjk e.symm
        · simp only [put_other _ _ h1] at hj
          exact absurd (ha j h1) hj
      · by_cases h1 : j = i
        · subst h1
          simp only [put_same, left] at hf
          rw [(hu j).2, List.mem_filter] at hf
          simpa using hf.2
        · simp only [put_other _ _ h1] at hf
          exact absurd hf (left_idle (ha j h1))
    · exact q
  | batch i ok =>
    unfold MigrateParallel.step
    dsimp only
    split
    · rename_i b bs hs
      have hleft : left (s.pcs i) = b ++ bs.flatten := by rw [hs]; simp [left]
      have hbusy : ¬ Idle (s.pcs i) := by rw [hs]; simp [Idle]
      have hnd := h.nodup i
      rw [hleft, List.nodup_append] at hnd
      split
      · refine ⟨fun j k hjk hj => ?_, fun j f hf => ?_, fun f => ?_⟩
        · have hothers : ∀ j, j ≠ i → Idle (s.pcs j) := fun j hj => q.one i j (fun e => hj e.symm) hbusy
          by_cases h1 : j = i
          · subst h1
            simp only [put_other _ _ (fun e => hjk e.symm : k ≠ j)]
            exact hothers k fun e => hjk e.symm
          · simp only [put_other _ _ h1] at hj
            exact absurd (hothers j h1) hj
        · by_cases h1 : j = i
          · subst h1
            simp only [put_same, left] at hf
            simp only [List.mem_append, not_or]
            exact ⟨q.new j f (by rw [hleft]; simp [hf]), fun hb => hnd.2.2 f hb f hf rfl⟩
          · simp only [put_other _ _ h1] at hf
            exact absurd hf (left_idle (q.one i j (fun e => h1 e.symm) hbusy))
        · have hold := q.times f
          unfold MigrateParallelSpec.times at hold ⊢
          have hmap : (List.map (fun f => (i, f)) b).map Prod.snd = b := by simp [Function.comp_def]
          simp only [List.map_append, hmap, List.count_append]
          by_cases hf : f ∈ b
          · have h1 : (s.log.map Prod.snd).count f = 0 := List.count_eq_zero.mpr fun hm => by
              refine q.new i f (by rw [hleft]; simp [hf]) ?_
              rw [h.hist]
              exact List.mem_append_right _ hm
            have h2 := List.nodup_iff_count.mp hnd.1 f
            omega
          · have h2 : b.count f = 0 := List.count_eq_zero.mpr hf
            omega
      · refine ⟨fun j k hjk hj => ?_, fun j f hf => ?_, q.times⟩
        · by_cases h1 : j = i
          · subst h1; simp [put_same, Idle] at hj
          · simp only [put_other _ _ h1] at hj
            by_cases h2 : k = i
            · subst h2; simp [put_same, Idle]
            · simp only [put_other _ _ h2]; exact q.one j k hjk hj
        · by_cases h1 : j = i
          · subst h1; simp [put_same, left] at hf
          · simp only [put_other _ _ h1] at hf; exact q.new j f hf
    · exact q

/-- If no command reads the history while another one has work left, every migration takes effect at
most once, whatever fails. -/
theorem parallel_once_partial {u : Setup} (hu : Proper u) (s : State) (hs : Fresh s) (es : List Event)
    (ha : Apart u s es) (f : Str) : times (run u s es) f ≤ 1 := by
  have key : ∀ (es : List Event) (t : State), Inv u s.hist t → Quiet t → Apart u t es →
      Quiet (run u t es) := by
    intro es
    induction es with
    | nil => intro t _ q _; exact q
    | cons e es ih =>
      intro t h q ha
      exact ih _ (h.step hu e) (q.step hu h e ha.1) ha.2
  exact (key es s (fresh_inv hs) ⟨fun i j _ hi => by rw [hs.2 i] at hi; exact absurd trivial hi,
    fun i f hf => by rw [hs.2 i] at hf; simp [left] at hf,
    fun f => by simp [MigrateParallelSpec.times, hs.1]⟩ ha).times f

/-- Two commands with the same two files, each file in a batch of its own. -/
def two : Setup where
  files _ := [b!"01.sql", b!"02.sql"]
  batches _ q := q.map fun f => [f]

theorem two_proper : Proper two := by
  intro i
  refine ⟨by show List.Nodup [b!"01.sql", b!"02.sql"]; decide, fun q => ?_⟩
  show (q.map fun f => [f]).flatten = q
  induction q with
  | nil => rfl
  | cons f q ih => simp [ih]

/-- One after the other; the first one fails at its second file. -/
def inTurn : List Event := [.read 0, .batch 0 true, .batch 0 false, .read 1, .batch 1 true]

example : Apart two ⟨[], [], fun _ => .start⟩ inTurn ∧
    (run two ⟨[], [], fun _ => .start⟩ inTurn).log = [(0, b!"01.sql"), (1, b!"02.sql")] := by
  refine ⟨?_, by decide +kernel⟩
  simp only [inTurn, Apart, and_true]
  refine ⟨?_, fun i h => by simp at h, fun i h => by simp at h, ?_, fun i h => by simp at h⟩
  · intro i _ j _; exact trivial
  · intro i hi j hj
    cases hi
    by_cases h0 : j = 0
    · subst h0
      show Idle (run two ⟨[], [], fun _ => .start⟩ [.read 0, .batch 0 true, .batch 0 false] |>.pcs 0)
      have : (run two ⟨[], [], fun _ => .start⟩ [.read 0, .batch 0 true, .batch 0 false]).pcs 0 = .failed := by
        decide +kernel
      rw [this]
      trivial
    · show Idle ((step two (step two (step two _ _) _) _).pcs j)
      have : ∀ t : State, t.pcs j = .start → ∀ e, (e = .read 0 ∨ e = .batch 0 true ∨ e = .batch 0 false) →
          (step two t e).pcs j = .start := by
        intro t ht e he
        rcases he with rfl | rfl | rfl
        · unfold step; dsimp only; split <;> simp [put_other _ _ h0, ht]
        · unfold step; dsimp only; split <;> simp [put_other _ _ h0, ht]
        · unfold step; dsimp only; split <;> simp [put_other _ _ h0, ht]
      rw [this _ (this _ (this _ rfl _ (by simp)) _ (by simp)) _ (by simp)]
      trivial

/-- The full claim fails: both commands read the history, then both run the first file. -/
theorem parallel_once_refuted :
    ¬ ∀ (u : Setup) (s : State) (es : List Event), Proper u → Fresh s → ∀ f, times (run u s es) f ≤ 1 := by
  intro h
  have := h two ⟨[], [], fun _ => .start⟩ [.read 0, .read 1, .batch 0 true, .batch 1 true] two_proper
    ⟨rfl, fun _ => rfl⟩ b!"01.sql"
  revert this
  decide +kernel

end Sqddl.MigrateParallel
