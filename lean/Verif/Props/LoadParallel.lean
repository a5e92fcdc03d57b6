import Verif.Spec.LoadParallel

/-!
# C89-C91: the CSV files of a load, in every order of their steps
-/

namespace Sqddl.LoadParallel
open LoadParallelSpec

section
variable {V : Type} [DecidableEq V] {u : Setup V} {init : Nat → V} {T L : Prop}

/-- The file and the number of a statement. -/
def place (w : Write V) : Nat × Nat := (w.file, w.no)

/-- What has been written in a transaction: the first `k` statements of file `i`. -/
def Written (u : Setup V) (i k : Nat) (p : List (Write V)) : Prop :=
  p.map place = (List.range k).map (fun k => (i, k)) ∧ ∀ w ∈ p, w.value = u.want

/-- What holds of the connection that a goroutine is using. -/
def Local (u : Setup V) (init : Nat → V) (T : Prop) (i c : Nat) (q : Pc V) (x : Conn V) : Prop :=
  ∃ v p, x.tx = some (v, p) ∧ (T → v = init c) ∧
    match q with
    | .show _ => p = [] ∧ x.value = v
    | .assign _ old => p = [] ∧ x.value = v ∧ old = v
    | .insert _ old k => x.value = u.want ∧ old.getD u.want = v ∧ k ≤ u.size i ∧ Written u i k p
    | .restore _ old => x.value = u.want ∧ old.getD u.want = v ∧ Written u i (u.size i) p
    | .commit _ => x.value = v ∧ Written u i (u.size i) p
    | _ => T → u.transactional = true

/-- What holds in every state that is reached, unless goroutines share a connection. -/
structure Inv (u : Setup V) (init : Nat → V) (T L : Prop) (s : State V) : Prop where
  here : ∀ i c, (s.pcs i).conn = some c → Local u init T i c (s.pcs i) (s.conns c)
  one : ∀ i j c, (s.pcs i).conn = some c → (s.pcs j).conn = some c → i = j
  idle : ∀ c, (∀ i, (s.pcs i).conn ≠ some c) →
    (s.conns c).tx = none ∧ (T → (s.conns c).value = init c)
  file : ∀ i c, (s.pcs i).conn = some c → i < u.files
  log : ∃ order : List Nat, Serial u.size order s.log ∧ WrittenUnder u.want s.log ∧
    (∀ i, s.pcs i = .done true → i ∈ order) ∧
    ∀ i ∈ order, s.pcs i = .done true ∨ (L ∧ s.pcs i = .done false)

@[simp] theorem put_same {α : Type} (f : Nat → α) (i : Nat) (x : α) : put f i x i = x := by
  simp [put]

theorem put_other {α : Type} (f : Nat → α) {i j : Nat} (x : α) (h : j ≠ i) : put f i x j = f j := by
  simp [put, h]

theorem initial_inv (value : Nat → V) : Inv u value T L (initial value) where
  here i c h := by simp [initial, Pc.conn] at h
  one i j c h := by simp [initial, Pc.conn] at h
  idle c _ := by simp [initial]
  file i c h := by simp [initial, Pc.conn] at h
  log := ⟨[], by simp [Serial, initial], by simp [WrittenUnder, initial], by simp [initial], by simp⟩

/-- A goroutine goes on in its transaction. -/
theorem Inv.move {s : State V} (h : Inv u init T L s) {i c : Nat} {q : Pc V} {x : Conn V}
    (hc : (s.pcs i).conn = some c) (hq : q.conn = some c) (hx : Local u init T i c q x) :
    Inv u init T L (s.set i q c x) where
  here j d hj := by
    by_cases hi : j = i
    · subst hi
      simp only [State.set, put_same] at hj ⊢
      rw [hq] at hj
      cases hj
      simpa using hx
    · simp only [State.set, put_other _ _ hi] at hj ⊢
      have hd : d ≠ c := fun e => hi (h.one j i c (e ▸ hj) hc)
      rw [put_other _ _ hd]
      exact h.here j d hj
  one j k d hj hk := by
    simp only [State.set, put] at hj hk
    split at hj <;> split at hk
    · grind
    · rw [hq] at hj; cases hj
      rename_i h1 h2
      exact absurd (h.one k i c hk hc) h2
    · rw [hq] at hk; cases hk
      rename_i h1 h2
      exact absurd (h.one j i c hj hc) h1
    · exact h.one j k d hj hk
  idle d hd := by
    have hdc : d ≠ c := fun e => hd i (by simp [State.set, hq, e])
    simp only [State.set, put_other _ _ hdc]
    refine h.idle d fun j hj => ?_
    by_cases hi : j = i
    · subst hi; rw [hc] at hj; cases hj; exact hdc rfl
    · exact hd j (by simpa [State.set, put_other _ _ hi] using hj)
  file j d hj := by
    by_cases hi : j = i
    · subst hi; exact h.file j c hc
    · simp only [State.set, put_other _ _ hi] at hj
      exact h.file j d hj
  log := by
    obtain ⟨order, h1, h2, h3, h4⟩ := h.log
    refine ⟨order, by simpa [State.set] using h1, by simpa [State.set] using h2, fun j hj => ?_,
      fun j hj => ?_⟩
    · by_cases hi : j = i
      · subst hi
        simp only [State.set, put_same] at hj
        rw [hj] at hq; cases hq
      · simp only [State.set, put_other _ _ hi] at hj
        exact h3 j hj
    · by_cases hi : j = i
      · subst hi
        rcases h4 j hj with e | ⟨_, e⟩ <;> rw [e] at hc <;> cases hc
      · simpa only [State.set, put_other _ _ hi] using h4 j hj

theorem flatMap_snoc (size : Nat → Nat) (order : List Nat) (i : Nat) :
    (order ++ [i]).flatMap (whole size) = order.flatMap (whole size) ++ whole size i := by
  simp

/-- A goroutine returns; `w` is what it has committed. -/
theorem Inv.finish {s : State V} (h : Inv u init T L s) {i c : Nat} {b : Bool} {x : Conn V}
    {w : List (Write V)} (hc : (s.pcs i).conn = some c)
    (hx : x.tx = none ∧ (T → x.value = init c))
    (hw : (b = false ∧ w = []) ∨ (Written u i (u.size i) w ∧ (b = false → L))) :
    Inv u init T L (s.set i (.done b) c x w) where
  here j d hj := by
    by_cases hi : j = i
    · subst hi
      simp [State.set, Pc.conn] at hj
    · simp only [State.set, put_other _ _ hi] at hj ⊢
      have hd : d ≠ c := fun e => hi (h.one j i c (e ▸ hj) hc)
      rw [put_other _ _ hd]
      exact h.here j d hj
  one j k d hj hk := by
    by_cases h1 : j = i
    · subst h1; simp [State.set, Pc.conn] at hj
    by_cases h2 : k = i
    · subst h2; simp [State.set, Pc.conn] at hk
    simp only [State.set, put_other _ _ h1, put_other _ _ h2] at hj hk
    exact h.one j k d hj hk
  idle d hd := by
    by_cases hdc : d = c
    · subst hdc; simpa [State.set] using hx
    simp only [State.set, put_other _ _ hdc]
    refine h.idle d fun j hj => ?_
    by_cases hi : j = i
    · subst hi; rw [hc] at hj; cases hj; exact hdc rfl
    · exact hd j (by simpa [State.set, put_other _ _ hi] using hj)
  file j d hj := by
    by_cases hi : j = i
    · subst hi; exact h.file j c hc
    · simp only [State.set, put_other _ _ hi] at hj
      exact h.file j d hj
  log := by
    obtain ⟨order, ⟨hn, h1⟩, h2, h3, h4⟩ := h.log
    have hni : i ∉ order := by
      intro hi
      rcases h4 i hi with e | ⟨_, e⟩ <;> rw [e] at hc <;> cases hc
    rcases hw with ⟨rfl, rfl⟩ | ⟨⟨hp, hv⟩, hL⟩
    · refine ⟨order, ⟨hn, by simpa [State.set] using h1⟩, by simpa [State.set] using h2,
        fun j hj => ?_, fun j hj => ?_⟩
      · by_cases hi : j = i
        · subst hi; simp [State.set] at hj
        · simp only [State.set, put_other _ _ hi] at hj
          exact h3 j hj
      · have hi : j ≠ i := fun e => hni (e ▸ hj)
        simpa only [State.set, put_other _ _ hi] using h4 j hj
    · refine ⟨order ++ [i], ⟨?_, ?_⟩, ?_, fun j hj => ?_, fun j hj => ?_⟩
      · simp only [List.nodup_append, List.nodup_cons, List.not_mem_nil, not_false_eq_true,
          List.nodup_nil, and_true, List.mem_singleton, true_and]
        refine ⟨hn, fun a ha b hb => ?_⟩
        subst hb
        exact fun e => hni (e ▸ ha)
      · rw [flatMap_snoc, ← h1]
        simp only [State.set, List.map_append]
        exact congrArg _ hp
      · intro y hy
        simp only [State.set, List.mem_append] at hy
        exact hy.elim (h2 y) (hv y)
      · by_cases hi : j = i
        · subst hi; simp
        · simp only [State.set, put_other _ _ hi] at hj
          simp [h3 j hj]
      · by_cases hi : j = i
        · subst hi
          cases b
          · exact Or.inr ⟨hL rfl, by simp [State.set]⟩
          · exact Or.inl (by simp [State.set])
        · have hj : j ∈ order := by simpa [hi] using hj
          simpa only [State.set, put_other _ _ hi] using h4 j hj

/-- A goroutine that was not able to begin. -/
theorem Inv.refuse {s : State V} (h : Inv u init T L s) {i : Nat} (hs : s.pcs i = .start) :
    Inv u init T L { s with pcs := put s.pcs i (.done false) } where
  here j d hj := by
    by_cases hi : j = i
    · subst hi; simp [Pc.conn] at hj
    · simp only [put_other _ _ hi] at hj ⊢
      exact h.here j d hj
  one j k d hj hk := by
    by_cases h1 : j = i
    · subst h1; simp [Pc.conn] at hj
    by_cases h2 : k = i
    · subst h2; simp [Pc.conn] at hk
    simp only [put_other _ _ h1, put_other _ _ h2] at hj hk
    exact h.one j k d hj hk
  idle d hd := by
    refine h.idle d fun j hj => ?_
    by_cases hi : j = i
    · subst hi; rw [hs] at hj; cases hj
    · exact hd j (by simpa [put_other _ _ hi] using hj)
  file j d hj := by
    by_cases hi : j = i
    · subst hi; simp [Pc.conn] at hj
    · simp only [put_other _ _ hi] at hj
      exact h.file j d hj
  log := by
    obtain ⟨order, h1, h2, h3, h4⟩ := h.log
    refine ⟨order, h1, h2, fun j hj => ?_, fun j hj => ?_⟩
    · by_cases hi : j = i
      · subst hi; simp at hj
      · simp only [put_other _ _ hi] at hj
        exact h3 j hj
    · by_cases hi : j = i
      · subst hi
        rcases h4 j hj with e | ⟨_, e⟩ <;> rw [e] at hs <;> cases hs
      · simpa only [put_other _ _ hi] using h4 j hj

/-- A goroutine begins a transaction on a connection that no other is using. -/
theorem Inv.begin {s : State V} (h : Inv u init T L s) {i c : Nat} (hs : s.pcs i = .start)
    (hi : i < u.files) (hfree : ∀ j, (s.pcs j).conn ≠ some c) :
    Inv u init T L (s.set i (.show c) c { s.conns c with tx := some ((s.conns c).value, []) }) where
  here j d hj := by
    by_cases hji : j = i
    · subst hji
      simp only [State.set, put_same] at hj ⊢
      simp only [Pc.conn, Option.some.injEq] at hj
      subst hj
      simp only [put_same]
      exact ⟨_, _, rfl, (h.idle c hfree).2, rfl, rfl⟩
    · simp only [State.set, put_other _ _ hji] at hj ⊢
      have hd : d ≠ c := fun e => hfree j (e ▸ hj)
      rw [put_other _ _ hd]
      exact h.here j d hj
  one j k d hj hk := by
    simp only [State.set, put] at hj hk
    split at hj <;> split at hk
    · grind
    · simp only [Pc.conn, Option.some.injEq] at hj; subst hj; exact absurd hk (hfree k)
    · simp only [Pc.conn, Option.some.injEq] at hk; subst hk; exact absurd hj (hfree j)
    · exact h.one j k d hj hk
  idle d hd := by
    have hdc : d ≠ c := fun e => hd i (by simp [State.set, Pc.conn, e])
    simp only [State.set, put_other _ _ hdc]
    refine h.idle d fun j hj => ?_
    by_cases hji : j = i
    · subst hji; rw [hs] at hj; cases hj
    · exact hd j (by simpa [State.set, put_other _ _ hji] using hj)
  file j d hj := by
    by_cases hji : j = i
    · subst hji; exact hi
    · simp only [State.set, put_other _ _ hji] at hj
      exact h.file j d hj
  log := by
    obtain ⟨order, h1, h2, h3, h4⟩ := h.log
    refine ⟨order, by simpa [State.set] using h1, by simpa [State.set] using h2, fun j hj => ?_,
      fun j hj => ?_⟩
    · by_cases hji : j = i
      · subst hji; simp [State.set] at hj
      · simp only [State.set, put_other _ _ hji] at hj
        exact h3 j hj
    · by_cases hji : j = i
      · subst hji
        rcases h4 j hj with e | ⟨_, e⟩ <;> rw [e] at hs <;> cases hs
      · simpa only [State.set, put_other _ _ hji] using h4 j hj

theorem mayBegin_free {s : State V} (h : Inv u init T L s) (hm : u.mode ≠ .shared) {i c : Nat}
    (hs : s.pcs i = .start) (hb : mayBegin u s i c = true) :
    i < u.files ∧ ∀ j, (s.pcs j).conn ≠ some c := by
  unfold mayBegin at hb
  simp only [Bool.and_eq_true, decide_eq_true_eq] at hb
  refine ⟨hb.1, fun j hj => ?_⟩
  have hf := h.file j c hj
  replace hb := hb.2
  split at hb
  · have := List.all_eq_true.mp hb j (by simpa using hf)
    simp [hj] at this
  · simp only [Bool.and_eq_true, decide_eq_true_eq] at hb
    have := List.all_eq_true.mp hb.2 j (by simpa using hf)
    by_cases h1 : j < i
    · simp only [h1, if_true, decide_eq_true_eq] at this
      rw [this] at hj; cases hj
    · by_cases h2 : i < j
      · simp only [h1, h2, if_true, if_false, decide_eq_true_eq] at this
        rw [this] at hj; cases hj
      · have : j = i := by omega
        subst this
        rw [hs] at hj; cases hj
  · exact absurd (by assumption) hm

theorem rollback_idle {x : Conn V} {v : V} {p : List (Write V)} {c : Nat} (hx : x.tx = some (v, p))
    (hv : T → v = init c) (ht : T → u.transactional = true) :
    (x.rollback u).tx = none ∧ (T → (x.rollback u).value = init c) := by
  unfold Conn.rollback
  rw [hx]
  refine ⟨rfl, fun t => ?_⟩
  simp [ht t, hv t]

theorem written_snoc {i k : Nat} {p : List (Write V)} (h : Written u i k p) :
    Written u i (k + 1) (p ++ [⟨i, k, u.want⟩]) := by
  refine ⟨?_, ?_⟩
  · rw [List.map_append, h.1, List.range_succ, List.map_append]
    rfl
  · intro w hw
    rcases List.mem_append.mp hw with hw | hw
    · exact h.2 w hw
    · simp only [List.mem_singleton] at hw
      rw [hw]

/-- A goroutine that has begun goes on. -/
theorem Inv.advance {s : State V} (h : Inv u init T L s) (i : Nat) (o : Outcome)
    (hT : o ≠ .ok → T → u.transactional = true) (hL : o = .lost → L) :
    Inv u init T L (advance u s i o) := by
  unfold LoadParallel.advance
  have hh := h.here i
  revert hh
  cases hp : s.pcs i with
  | start => intro _; exact h
  | done b => intro _; exact h
  | «show» c =>
    intro hh
    have hc : (s.pcs i).conn = some c := by rw [hp]; rfl
    obtain ⟨v, p, e1, e2, e3, e4⟩ := hh c rfl
    dsimp only
    split
    · rename_i ho
      exact h.move hc rfl ⟨v, p, e1, e2, hT ho⟩
    · split
      · rename_i hw
        subst e3
        exact h.move hc rfl ⟨v, [], e1, e2, hw, by simpa [hw] using e4, Nat.zero_le _, rfl, by simp⟩
      · exact h.move hc rfl ⟨v, p, e1, e2, e3, e4, e4⟩
  | assign c old =>
    intro hh
    have hc : (s.pcs i).conn = some c := by rw [hp]; rfl
    obtain ⟨v, p, e1, e2, e3, e4, e5⟩ := hh c rfl
    dsimp only
    cases o with
    | ok =>
      subst e3
      exact h.move hc rfl ⟨v, [], e1, e2, rfl, by simpa using e5, Nat.zero_le _, rfl, by simp⟩
    | err => exact h.move hc rfl ⟨v, p, e1, e2, hT (by simp)⟩
    | lost => exact h.move hc rfl ⟨v, p, e1, e2, hT (by simp)⟩
  | insert c old k =>
    intro hh
    have hc : (s.pcs i).conn = some c := by rw [hp]; rfl
    obtain ⟨v, p, e1, e2, e3, e4, e5, e6⟩ := hh c rfl
    dsimp only
    have hwr : (s.conns c).write ⟨i, k, (s.conns c).value⟩ =
        ([], { s.conns c with tx := some (v, p ++ [⟨i, k, u.want⟩]) }) := by
      unfold Conn.write
      rw [e1]
      simp [e3]
    split
    · rename_i hk
      rw [hwr]
      cases o with
      | ok => exact h.move hc rfl ⟨v, _, rfl, e2, e3, e4, hk, written_snoc e6⟩
      | err => exact h.move hc rfl ⟨v, p, e1, e2, hT (by simp)⟩
      | lost => exact h.move hc rfl ⟨v, _, rfl, e2, hT (by simp)⟩
    · rename_i hk
      have hk : k = u.size i := by omega
      subst hk
      split
      · exact h.move hc rfl ⟨v, p, e1, e2, e3, e4, e6⟩
      · rename_i ho
        exact h.move hc rfl ⟨v, p, e1, e2, hT ho⟩
  | restore c old =>
    intro hh
    have hc : (s.pcs i).conn = some c := by rw [hp]; rfl
    obtain ⟨v, p, e1, e2, e3, e4, e6⟩ := hh c rfl
    dsimp only
    cases old with
    | none =>
      simp only [Option.getD_none] at e4
      exact h.move hc rfl ⟨v, p, e1, e2, by rw [e3, e4], e6⟩
    | some old =>
      simp only [Option.getD_some] at e4
      cases o with
      | ok => exact h.move hc rfl ⟨v, p, e1, e2, e4, e6⟩
      | err => exact h.move hc rfl ⟨v, p, e1, e2, hT (by simp)⟩
      | lost => exact h.move hc rfl ⟨v, p, e1, e2, hT (by simp)⟩
  | commit c =>
    intro hh
    have hc : (s.pcs i).conn = some c := by rw [hp]; rfl
    obtain ⟨v, p, e1, e2, e3, e6⟩ := hh c rfl
    dsimp only
    have hcm : (s.conns c).commit = (p, { s.conns c with tx := none }) := by
      unfold Conn.commit
      rw [e1]
    cases o with
    | ok =>
      rw [hcm]
      exact h.finish hc ⟨rfl, fun t => by rw [← e2 t]; exact e3⟩ (Or.inr ⟨e6, by simp⟩)
    | err => exact h.finish hc (rollback_idle e1 e2 (hT (by simp))) (Or.inl ⟨rfl, rfl⟩)
    | lost =>
      rw [hcm]
      exact h.finish hc ⟨rfl, fun t => by rw [← e2 t]; exact e3⟩ (Or.inr ⟨e6, fun _ => hL rfl⟩)
  | undo c old =>
    intro hh
    have hc : (s.pcs i).conn = some c := by rw [hp]; rfl
    obtain ⟨v, p, e1, e2, e3⟩ := hh c rfl
    dsimp only
    cases old with
    | none => exact h.move hc rfl ⟨v, p, e1, e2, e3⟩
    | some old =>
      refine h.move hc rfl ⟨v, p, ?_, e2, e3⟩
      split
      · exact e1
      · exact e1
  | rollback c =>
    intro hh
    have hc : (s.pcs i).conn = some c := by rw [hp]; rfl
    obtain ⟨v, p, e1, e2, e3⟩ := hh c rfl
    exact h.finish hc (rollback_idle e1 e2 e3) (Or.inl ⟨rfl, rfl⟩)

/-- The steps that need a setting which rolling back restores. -/
def Bad : Event → Prop
  | .run _ _ o => o ≠ .ok
  | .abort _ => True

theorem Inv.step {s : State V} (h : Inv u init T L s) (hm : u.mode ≠ .shared) (e : Event)
    (hT : Bad e → T → u.transactional = true) (hL : ∀ i c, e = .run i c .lost → L) :
    Inv u init T L (step u s e) := by
  cases e with
  | run i c o =>
    simp only [Bad] at hT
    unfold LoadParallel.step
    dsimp only
    split
    · rename_i hs
      split
      · rename_i hb
        obtain ⟨hi, hfree⟩ := mayBegin_free h hm hs hb
        unfold LoadParallel.begin
        split
        · exact h.refuse hs
        · rw [(h.idle c hfree).1]
          exact h.begin hs hi hfree
      · exact h
    · exact h.advance i o hT (fun e => hL i c (by rw [e]))
  | abort i =>
    unfold LoadParallel.step
    dsimp only
    split
    · rename_i c hc
      obtain ⟨v, p, e1, e2, _⟩ := h.here i c hc
      exact h.finish hc (rollback_idle e1 e2 (hT trivial)) (Or.inl ⟨rfl, rfl⟩)
    · split
      · rename_i hs
        exact h.refuse hs
      · exact h

theorem Inv.steps (hm : u.mode ≠ .shared) (es : List Event) :
    ∀ s : State V, Inv u init T L s → (∀ e ∈ es, Bad e → T → u.transactional = true) →
      (AnswerLost es → L) → Inv u init T L (es.foldl (LoadParallel.step u) s) := by
  induction es with
  | nil => intro s h _ _; exact h
  | cons e es ih =>
    intro s h hT hL
    refine ih _ (h.step hm e (hT e (by simp)) ?_) (fun x hx => hT x (by simp [hx])) ?_
    · rintro i c rfl
      exact hL ⟨i, c, by simp⟩
    · rintro ⟨i, c, hc⟩
      exact hL ⟨i, c, by simp [hc]⟩

/-! ## C89: every file completely or not at all -/

theorem filter_whole (size : Nat → Nat) (i : Nat) (order : List Nat) (hn : order.Nodup) :
    ((order.flatMap (whole size)).filter (·.1 = i)).map Prod.snd =
      if i ∈ order then List.range (size i) else [] := by
  induction order with
  | nil => simp
  | cons j r ih =>
    simp only [List.nodup_cons] at hn
    simp only [List.flatMap_cons, List.filter_append, List.map_append, ih hn.2, List.mem_cons]
    by_cases h : i = j
    · subst h
      have : (List.filter (fun x => decide (x.1 = i)) (whole size i)) = whole size i := by
        apply List.filter_eq_self.mpr
        intro x hx
        simp only [whole, List.mem_map] at hx
        obtain ⟨k, _, rfl⟩ := hx
        simp
      rw [this]
      simp [hn.1, whole, List.map_map, Function.comp_def]
    · have : (List.filter (fun x => decide (x.1 = i)) (whole size j)) = [] := by
        apply List.filter_eq_nil_iff.mpr
        intro x hx
        simp only [whole, List.mem_map] at hx
        obtain ⟨k, _, rfl⟩ := hx
        simpa using fun e => h e.symm
      rw [this]
      simp [h]

theorem committed_serial {size : Nat → Nat} {order : List Nat} {log : List (Write V)}
    (h : Serial size order log) (i : Nat) :
    committed log i = if i ∈ order then List.range (size i) else [] := by
  rw [← filter_whole size i order h.1, ← h.2, List.filter_map, List.map_map]
  rfl

theorem serial_allOrNothing {size : Nat → Nat} {order : List Nat} {log : List (Write V)}
    (h : Serial size order log) : AllOrNothing size log := by
  intro i
  rw [committed_serial h i]
  split
  · exact Or.inl rfl
  · exact Or.inr rfl

end

/-- The CSV files of a directory (in parallel, on connections of their own) and of a `.tgz` archive,
and all CSV files of SQLite (one after the other): whatever the order of the steps, whichever
statements fail and wherever the process ends, every file has been loaded completely, once and in its
order, or not at all; and the files are as if they had been loaded one after the other.  A file whose
load returned without error is there, and (unless the answer to a `COMMIT` was lost) one whose load
failed is not. -/
theorem load_csv_atomic {V : Type} [DecidableEq V] (u : Setup V) (hm : u.mode ≠ .shared)
    (value : Nat → V) (es : List Event) :
    AllOrNothing u.size (run u value es).log ∧
    (∃ order, Serial u.size order (run u value es).log) ∧
    (∀ i, (run u value es).pcs i = .done true →
      committed (run u value es).log i = List.range (u.size i)) ∧
    (∀ i, (run u value es).pcs i = .done false → ¬ AnswerLost es →
      committed (run u value es).log i = []) := by
  have h := (initial_inv (u := u) (T := False) (L := AnswerLost es) value).steps hm es _
    (fun _ _ _ t => t.elim) id
  obtain ⟨order, h1, h2, h3, h4⟩ := h.log
  refine ⟨serial_allOrNothing h1, ⟨order, h1⟩, fun i hi => ?_, fun i hi hl => ?_⟩
  · exact (committed_serial h1 i).trans (if_pos (h3 i hi))
  · refine (committed_serial h1 i).trans (if_neg fun hm => ?_)
    have hi' : (List.foldl (step u) (initial value) es).pcs i = .done false := hi
    rcases h4 i hm with e | ⟨e, _⟩
    · rw [hi'] at e; cases e
    · exact hl e

/-- A load that succeeded has loaded every statement of every file once. -/
theorem load_csv_complete {V : Type} [DecidableEq V] (u : Setup V) (hm : u.mode ≠ .shared)
    (value : Nat → V) (es : List Event) (hs : Succeeded u.files (run u value es)) :
    ∀ i < u.files, committed (run u value es).log i = List.range (u.size i) :=
  fun i hi => (load_csv_atomic u hm value es).2.2.1 i (hs i hi)

/-- Two files of two statements, on a pool. -/
def twoFiles (mode : Mode) (nested : Nested) (transactional : Bool) : Setup Nat where
  files := 2
  size := fun i => if i = 0 then 2 else 1
  want := 0
  mode := mode
  nested := nested
  transactional := transactional

/-- The first file on connection 3, the second one on connection 5, taking turns; the first fails at
its second statement. -/
def turns : List Event :=
  [.run 0 3 .ok, .run 1 5 .ok, .run 0 0 .ok, .run 1 0 .ok, .run 0 0 .ok, .run 1 0 .ok, .run 0 0 .ok,
   .run 1 0 .ok, .run 0 0 .err, .run 1 0 .ok, .run 0 0 .ok, .run 1 0 .ok, .run 1 0 .ok, .run 0 0 .ok]

example : let s := run (twoFiles .pool .commits false) (fun _ => 1) turns
    s.log = [⟨1, 0, 0⟩] ∧ s.pcs 0 = .done false ∧ s.pcs 1 = .done true ∧ ¬ AnswerLost turns ∧
    (s.conns 3).value = 1 ∧ (s.conns 5).value = 1 := by
  refine ⟨by decide +kernel, by decide +kernel, by decide +kernel, ?_, by decide +kernel, by decide +kernel⟩
  rintro ⟨i, c, h⟩
  simp [turns] at h

/-- Both files without an error, one after the other. -/
def smooth : List Event :=
  List.replicate 8 (.run 0 0 .ok) ++ List.replicate 7 (.run 1 0 .ok)

example : let s := run (twoFiles .loop .commits false) (fun _ => 1) smooth
    Succeeded 2 s ∧ s.log = [⟨0, 0, 0⟩, ⟨0, 1, 0⟩, ⟨1, 0, 0⟩] ∧ Calm smooth := by
  refine ⟨?_, by decide +kernel, ?_⟩
  · intro i hi
    rcases i with _ | _ | i
    · decide +kernel
    · decide +kernel
    · omega
  · intro e he
    simp only [smooth, List.mem_append, List.mem_replicate] at he
    rcases he with ⟨_, rfl⟩ | ⟨_, rfl⟩ <;> exact ⟨_, _, rfl⟩

/-- The first file writes one statement, then the second one begins, then the first one fails. -/
def interrupted : List Event :=
  [.run 0 0 .ok, .run 0 0 .ok, .run 0 0 .ok, .run 0 0 .ok, .run 1 0 .ok, .run 0 0 .err, .run 0 0 .ok,
   .run 0 0 .ok]

/-- The full claim fails for the CSV files of a `.zip` archive, which share one connection: on MySQL
the `BEGIN` of the second file commits the first statement of the first file, which then fails. -/
theorem load_zip_atomic_refuted :
    ¬ ∀ (u : Setup Nat) (value : Nat → Nat) (es : List Event), AllOrNothing u.size (run u value es).log := by
  intro h
  have := h (twoFiles .shared .commits false) (fun _ => 1) interrupted 0
  revert this
  decide +kernel

/-- With pgx it fails too: the `COMMIT` of the second file commits what the first one has written so
far. -/
theorem load_zip_pgx_atomic_refuted :
    ¬ ∀ (u : Setup Nat) (value : Nat → Nat) (es : List Event), u.nested = .joins →
      u.transactional = true → AllOrNothing u.size (run u value es).log := by
  intro h
  have := h (twoFiles .shared .joins true) (fun _ => 1)
    [.run 0 0 .ok, .run 0 0 .ok, .run 0 0 .ok, .run 0 0 .ok, .run 1 0 .ok, .run 1 0 .ok, .run 1 0 .ok,
     .run 1 0 .ok, .run 1 0 .ok, .run 1 0 .ok, .run 0 0 .err, .run 0 0 .ok, .run 0 0 .ok] rfl rfl 0
  revert this
  decide +kernel

/-- A file that was loaded without error can be missing: the first file fails and is rolled back on
the connection that the second one is using. -/
theorem load_zip_lost_refuted :
    ¬ ∀ (u : Setup Nat) (value : Nat → Nat) (es : List Event) (i : Nat), u.nested = .joins →
      (run u value es).pcs i = .done true →
      committed (run u value es).log i = List.range (u.size i) := by
  intro h
  have := h (twoFiles .shared .joins true) (fun _ => 0)
    [.run 0 0 .ok, .run 1 0 .ok, .run 1 0 .ok, .run 1 0 .ok, .run 0 0 .err, .run 0 0 .ok, .run 1 0 .ok,
     .run 1 0 .ok, .run 1 0 .ok] 1 rfl (by decide +kernel)
  revert this
  decide +kernel

/-- With pq the load of two files fails although nothing is wrong with them, if the second one begins
before the first one has been committed. -/
theorem load_zip_pq_refuted :
    ¬ ∀ (u : Setup Nat) (value : Nat → Nat) (es : List Event) (i : Nat), u.nested = .fails →
      Calm es → (run u value es).pcs i ≠ .done false := by
  intro h
  refine h (twoFiles .shared .fails true) (fun _ => 1) [.run 0 0 .ok, .run 1 0 .ok] 1 rfl ?_
    (by decide +kernel)
  intro e he
  simp only [List.mem_cons, List.not_mem_nil, or_false] at he
  rcases he with rfl | rfl <;> exact ⟨_, _, rfl⟩

/-! ## C90: the rows are written under the setting the code asks for -/

/-- Every row that is there was written with the time zone `UTC` (Postgres), or with the foreign key
checks off (MySQL), whatever the settings of the connections were and whichever other files were
loaded on connections of the pool. -/
theorem load_csv_setting {V : Type} [DecidableEq V] (u : Setup V) (hm : u.mode ≠ .shared)
    (value : Nat → V) (es : List Event) : WrittenUnder u.want (run u value es).log := by
  have h := (initial_inv (u := u) (T := False) (L := AnswerLost es) value).steps hm es _
    (fun _ _ _ t => t.elim) id
  obtain ⟨order, _, h2, _, _⟩ := h.log
  exact h2

example : WrittenUnder 0 (run (twoFiles .pool .commits false) (fun _ => 1) turns).log ∧
    (run (twoFiles .pool .commits false) (fun _ => 1) turns).log ≠ [] :=
  ⟨load_csv_setting (twoFiles .pool .commits false) (by decide) _ _, by decide +kernel⟩

/-- The second file begins while the first one has the setting changed, and writes after the first one
has restored it. -/
def overtaken : List Event :=
  [.run 0 0 .ok, .run 0 0 .ok, .run 0 0 .ok, .run 1 0 .ok, .run 1 0 .ok, .run 0 0 .ok, .run 0 0 .ok,
   .run 0 0 .ok, .run 0 0 .ok, .run 0 0 .ok, .run 1 0 .ok, .run 1 0 .ok, .run 1 0 .ok, .run 1 0 .ok]

/-- The full claim fails for the CSV files of a `.zip` archive: the load succeeds, but the timestamps
of the second file were read in the time zone of the session (pgx), or its rows were written with the
foreign key checks on (MySQL). -/
theorem load_zip_setting_refuted (nested : Nested) (hn : nested ≠ .fails) :
    ¬ ∀ (u : Setup Nat) (value : Nat → Nat) (es : List Event), u.nested = nested → Calm es →
      Succeeded u.files (run u value es) → WrittenUnder u.want (run u value es).log := by
  intro h
  have hc : Calm overtaken := by
    intro e he
    simp only [overtaken, List.mem_cons, List.not_mem_nil, or_false] at he
    rcases he with rfl | rfl | rfl | rfl | rfl | rfl | rfl | rfl | rfl | rfl | rfl | rfl | rfl | rfl <;>
      exact ⟨_, _, rfl⟩
  cases nested with
  | fails => exact hn rfl
  | commits =>
    have := h (twoFiles .shared .commits false) (fun _ => 1) overtaken rfl hc (by
      intro i hi
      rcases i with _ | _ | i
      · decide +kernel
      · decide +kernel
      · exact absurd hi (by show ¬ (i + 2 < 2); omega)) ⟨1, 0, 1⟩ (by decide +kernel)
    revert this
    decide +kernel
  | joins =>
    have := h (twoFiles .shared .joins true) (fun _ => 1) overtaken rfl hc (by
      intro i hi
      rcases i with _ | _ | i
      · decide +kernel
      · decide +kernel
      · exact absurd hi (by show ¬ (i + 2 < 2); omega)) ⟨1, 0, 1⟩ (by decide +kernel)
    revert this
    decide +kernel

/-! ## C91: afterwards the connections have the settings they had -/

/-- Once the load of the CSV files is over no connection is in a transaction, and all connections have
the setting they had before if rolling back restores it (Postgres) or if nothing went wrong. -/
theorem load_csv_restores_partial {V : Type} [DecidableEq V] (u : Setup V) (hm : u.mode ≠ .shared)
    (value : Nat → V) (es : List Event) (hover : Over u.files (run u value es)) :
    (∀ c, ((run u value es).conns c).tx = none) ∧
    (u.transactional = true ∨ Calm es → ∀ c, ((run u value es).conns c).value = value c) := by
  have key : ∀ T : Prop, (T → u.transactional = true ∨ Calm es) →
      ∀ c, ((run u value es).conns c).tx = none ∧ (T → ((run u value es).conns c).value = value c) := by
    intro T hT c
    have h := (initial_inv (u := u) (T := T) (L := AnswerLost es) value).steps hm es _
      (fun e he hb t => (hT t).elim id fun hc => by
        obtain ⟨i, c, rfl⟩ := hc e he
        exact absurd rfl hb) id
    refine h.idle c fun i hi => ?_
    obtain ⟨b, hb⟩ := hover i (h.file i c hi)
    have hb' : (List.foldl (step u) (initial value) es).pcs i = .done b := hb
    rw [hb'] at hi
    cases hi
  exact ⟨fun c => (key False (fun f => f.elim) c).1,
    fun h c => (key _ (fun h => h) c).2 h⟩

example : Over 2 (run (twoFiles .pool .commits true) (fun _ => 1) turns) := by
  intro i hi
  rcases i with _ | _ | i
  · exact ⟨false, by decide +kernel⟩
  · exact ⟨true, by decide +kernel⟩
  · omega

/-- The full claim fails on MySQL when a file fails: the context of the other files is cancelled, their
transactions are rolled back and their connections go back to the pool with the foreign key checks
off. -/
theorem load_csv_restores_refuted :
    ¬ ∀ (u : Setup Nat) (value : Nat → Nat) (es : List Event), u.mode = .pool →
      Over u.files (run u value es) → ∀ c, ((run u value es).conns c).value = value c := by
  intro h
  have := h (twoFiles .pool .commits false) (fun _ => 1)
    [.run 0 3 .ok, .run 1 5 .ok, .run 0 0 .ok, .run 0 0 .ok, .run 1 0 .ok, .run 1 0 .ok, .run 0 0 .err,
     .run 0 0 .ok, .run 0 0 .ok, .abort 1] rfl (by
      intro i hi
      rcases i with _ | _ | i
      · exact ⟨false, by decide +kernel⟩
      · exact ⟨false, by decide +kernel⟩
      · exact absurd hi (by show ¬ (i + 2 < 2); omega)) 5
  revert this
  decide +kernel

end Sqddl.LoadParallel
