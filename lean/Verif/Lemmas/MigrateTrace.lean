import Verif.Lemmas.MigrateRun

namespace MigrateSpec
open Sqddl Sqddl.Migrate FileSpec

theorem Trace.eff {cfg env db segs db'} (h : Trace cfg env db segs db') :
    db'.eff = db.eff ++ segs.flatMap Seg.effects := by
  induction h with
  | nil => simp
  | cons h _ _ ih => rw [ih, h.eff]; simp

theorem Trace.good {cfg env db segs db'} (h : Trace cfg env db segs db') :
    ∀ s ∈ segs, ∃ a b, GoodSeg cfg env s a b := by
  induction h with
  | nil => simp
  | cons h _ _ ih =>
    intro s hs
    rcases List.mem_cons.1 hs with rfl | hs
    · exact ⟨_, _, h⟩
    · exact ih s hs

theorem GoodSeg.frame {cfg env s db db'} (h : GoodSeg cfg env s db db') (g : Str) (hg : g ∉ s.files) :
    db'.hist g = db.hist g := by
  have failed : RowsFailed s.files db.hist db'.hist → db'.hist g = db.hist g := by
    intro hr
    rcases hr g with h | h
    · exact h
    · exact absurd h.1 hg
  by_cases hT : InTx cfg.dialect s.files
  · rcases h.tx hT with ⟨_, _, h1, h2⟩ | ⟨_, _, h1⟩
    · cases hk : cfg.skipHistory
      · exact (h2 hk).frame g hg
      · rw [h1 hk]
    · exact failed h1
  · obtain ⟨f, _, _, h1, h2⟩ := h.notx hT
    by_cases ho : s.outcome = .ok
    · obtain ⟨_, h3, h4⟩ := h1 ho
      cases hk : cfg.skipHistory
      · exact (h4 hk).frame g hg
      · rw [h3 hk]
    · rcases h2 ho with h3 | ⟨_, _, _, h3⟩
      · exact failed h3
      · exact h3.frame g hg

theorem Trace.frame {cfg env db segs db'} (h : Trace cfg env db segs db') (g : Str)
    (hg : g ∉ (segs.map (·.files)).flatten) : db'.hist g = db.hist g := by
  induction h with
  | nil => rfl
  | cons h _ _ ih =>
    simp only [List.map_cons, List.flatten_cons, List.mem_append, not_or] at hg
    rw [ih hg.2, h.frame g hg.1]

theorem GoodSeg.written {cfg env s db db'} (h : GoodSeg cfg env s db db') (ho : s.outcome = .ok)
    (hk : cfg.skipHistory = false) : RowsWritten env s.files db.hist db'.hist := by
  by_cases hT : InTx cfg.dialect s.files
  · rcases h.tx hT with ⟨_, _, _, h2⟩ | ⟨_, h1, _⟩
    · exact h2 hk
    · exact absurd ho h1
  · obtain ⟨f, _, _, h1, h2⟩ := h.notx hT
    exact (h1 ho).2.2 hk

theorem GoodSeg.scripts {cfg env s db db'} (h : GoodSeg cfg env s db db') (ho : s.outcome = .ok) :
    ∀ f ∈ s.files, Eff.script f ∈ s.effects := by
  intro f hf
  by_cases hT : InTx cfg.dialect s.files
  · rcases h.tx hT with ⟨h1, _⟩ | ⟨_, h1, _⟩
    · rw [h1]; exact List.mem_map.2 ⟨f, hf, rfl⟩
    · exact absurd ho h1
  · obtain ⟨g, h0, _, h1, h2⟩ := h.notx hT
    rw [h0] at hf
    simp at hf; subst hf
    exact (h1 ho).1

/-- the files a batch's effects belong to -/
theorem GoodSeg.effects_files {cfg env s db db'} (h : GoodSeg cfg env s db db') :
    ∀ e ∈ s.effects, ∃ f ∈ s.files, e = .script f ∨ e = .part f ∨ e = .undo f := by
  intro e he
  by_cases hT : InTx cfg.dialect s.files
  · rcases h.tx hT with ⟨h1, _⟩ | ⟨h1, _⟩
    · rw [h1] at he
      obtain ⟨f, hf, rfl⟩ := List.mem_map.1 he
      exact ⟨f, hf, Or.inl rfl⟩
    · simp [h1] at he
  · obtain ⟨g, h0, h1, _⟩ := h.notx hT
    exact ⟨g, by simp [h0], h1 e he⟩

theorem Trace.uptodate {cfg env db segs db'} (h : Trace cfg env db segs db')
    (hk : cfg.skipHistory = false) (hn : (segs.map (·.files)).flatten.Nodup) :
    ∀ s ∈ segs, s.outcome = .ok → ∀ f ∈ s.files, UpToDate env db'.hist f := by
  induction h with
  | nil => simp
  | cons h _ t ih =>
    rename_i db db1 db2 s segs
    simp only [List.map_cons, List.flatten_cons] at hn
    rw [List.nodup_append] at hn
    intro x hx ho f hf
    rcases List.mem_cons.1 hx with rfl | hx
    · have h1 := (h.written ho hk).uptodate hn.1 f hf
      have h2 := Trace.frame t f (fun hm => hn.2.2 f hf f hm rfl)
      unfold UpToDate at h1 ⊢
      rw [h2]; exact h1
    · exact ih hn.2.1 x hx ho f hf

/-- all batches but the last are complete -/
theorem Trace.dropLast_ok {cfg env db segs db'} (h : Trace cfg env db segs db') :
    ∀ s ∈ segs.dropLast, s.outcome = .ok := by
  induction h with
  | nil => simp
  | cons h ok t ih =>
    rename_i db db1 db2 s segs
    rcases ok with ok | ok
    · intro x hx
      cases segs with
      | nil => simp at hx
      | cons y ys =>
        rw [List.dropLast_cons_of_ne_nil (by simp)] at hx
        rcases List.mem_cons.1 hx with rfl | hx
        · exact ok
        · exact ih x hx
    · subst ok; simp

theorem execs_append (a b : List Ev) : execs (a ++ b) = execs a ++ execs b := by
  induction a with
  | nil => rfl
  | cons e a ih => cases e <;> simp [execs, ih]

theorem execs_map (l : List Str) : execs (l.map .exec) = l := by
  induction l with
  | nil => rfl
  | cons e a ih => simp [execs, ih]

theorem execs_events (s : Seg) (hu : s.undo = [] ∨ ∃ f, s.undo = [.undo f]) :
    execs s.events = s.attempts.flatten := by
  have : execs s.undo = [] := by
    rcases hu with h | ⟨f, h⟩ <;> simp [h, execs]
  simp only [Seg.events, execs, execs_append, execs_map, this, List.append_nil]

theorem GoodSeg.execs_eq {cfg env s db db'} (h : GoodSeg cfg env s db db') :
    execs s.events = s.attempts.flatten := by
  apply execs_events
  rcases h.undo_only with h | ⟨_, f, _, h, _⟩
  · exact Or.inl h
  · exact Or.inr ⟨f, h⟩

theorem GoodSeg.execs_mem {cfg env s db db'} (h : GoodSeg cfg env s db db') (f : Str)
    (hf : .exec f ∈ s.events ∨ .undo f ∈ s.events) : f ∈ s.files := by
  have mem : ∀ a ∈ s.attempts, ∀ g ∈ a, g ∈ s.files := fun a ha g hg =>
    (h.attempts_prefix a ha).subset hg
  rcases hf with hf | hf
  · have : f ∈ execs s.events := by
      generalize s.events = l at hf
      induction l with
      | nil => simp at hf
      | cons e l ih =>
        rcases List.mem_cons.1 hf with hf | hf
        · subst hf; simp [execs]
        · have := ih hf
          cases e <;> simp [execs, this]
    rw [h.execs_eq] at this
    obtain ⟨a, ha, hg⟩ := List.mem_flatten.1 this
    exact mem a ha f hg
  · have hf : .undo f ∈ s.undo := by
      simp only [Seg.events, List.mem_cons, List.mem_append, List.mem_map] at hf
      simpa using hf
    rcases h.undo_only with h1 | ⟨_, g, h2, h1, _⟩
    · simp [h1] at hf
    · rw [h1] at hf; simp at hf; subst hf; simp [h2]

/-- if every batch is transactional, a prefix of the files has taken effect -/
theorem Trace.alltx {cfg env db segs db'} (h : Trace cfg env db segs db')
    (hT : ∀ s ∈ segs, InTx cfg.dialect s.files) (hn : (segs.map (·.files)).flatten.Nodup) :
    ∃ p, p <+: (segs.map (·.files)).flatten ∧ db'.eff = db.eff ++ p.map .script ∧
      (cfg.skipHistory = false → ∀ f ∈ p, UpToDate env db'.hist f) ∧
      (∀ f, f ∉ p → db'.hist f = db.hist f ∨ ∃ r, db'.hist f = some r ∧ r.success = false) ∧
      ((∀ s ∈ segs, s.outcome = .ok) → p = (segs.map (·.files)).flatten) := by
  induction h with
  | nil => exact ⟨[], by simp, by simp, by simp, by simp, by simp⟩
  | cons h ok t ih =>
    rename_i db db1 db2 s segs
    simp only [List.map_cons, List.flatten_cons] at hn
    rw [List.nodup_append] at hn
    obtain ⟨hn1, hn2, hn3⟩ := hn
    rcases h.tx (hT s (by simp)) with ⟨h1, h2, h3, h4⟩ | ⟨h1, h2, h3⟩
    · obtain ⟨p, k1, k2, k3, k4, k5⟩ := ih (fun s hs => hT s (by simp [hs])) hn2
      refine ⟨s.files ++ p, by simpa using k1, ?_, ?_, ?_, ?_⟩
      · rw [k2, h.eff, h1]; simp
      · intro hk f hf
        rcases List.mem_append.1 hf with hf | hf
        · have a1 := (h4 hk).uptodate hn1 f hf
          have a2 := Trace.frame t f (fun hm => hn3 f hf f hm rfl)
          unfold UpToDate at a1 ⊢
          rw [a2]; exact a1
        · exact k3 hk f hf
      · intro f hf
        simp only [List.mem_append, not_or] at hf
        rcases k4 f hf.2 with k | k
        · rw [k]
          cases hk : cfg.skipHistory
          · exact Or.inl ((h4 hk).frame f hf.1)
          · rw [h3 hk]; exact Or.inl rfl
        · exact Or.inr k
      · intro hall
        rw [k5 (fun s hs => hall s (by simp [hs]))]
        simp
    · have hs : segs = [] := by
        rcases ok with ok | ok
        · exact absurd ok h2
        · exact ok
      subst hs
      cases t
      refine ⟨[], by simp, by simp [h.eff, h1], by simp, ?_, ?_⟩
      · intro f _
        rcases h3 f with h | h
        · exact Or.inl h
        · exact Or.inr h.2
      · intro hall
        exact absurd (hall s (by simp)) h2

/-- what a file that became up to date went through -/
theorem Trace.new_uptodate {cfg env db segs db'} (h : Trace cfg env db segs db') (f : Str)
    (h1 : ¬ UpToDate env db.hist f) (h2 : UpToDate env db'.hist f) :
    Eff.script f ∈ segs.flatMap Seg.effects := by
  induction h with
  | nil => exact absurd h2 h1
  | cons h ok t ih =>
    rename_i db db1 db2 s segs
    rw [List.flatMap_cons, List.mem_append]
    by_cases hm : UpToDate env db1.hist f
    · left
      have nofail : ¬ RowsFailed s.files db.hist db1.hist := by
        intro hr
        obtain ⟨r, a1, a2, a3⟩ := hm
        rcases hr f with hr | ⟨_, r', b1, b2⟩
        · exact h1 ⟨r, by rw [← hr]; exact a1, a2, a3⟩
        · rw [a1] at b1; simp at b1; subst b1; simp [a2] at b2
      have hin : f ∈ s.files := by
        apply Classical.byContradiction
        intro hne
        apply h1
        have := h.frame f hne
        unfold UpToDate at hm ⊢
        rw [← this]; exact hm
      by_cases hT : InTx cfg.dialect s.files
      · rcases h.tx hT with ⟨k1, _⟩ | ⟨_, _, k⟩
        · rw [k1]; exact List.mem_map.2 ⟨f, hin, rfl⟩
        · exact absurd k nofail
      · obtain ⟨g, h0, _, k1, k2⟩ := h.notx hT
        rw [h0] at hin
        simp at hin; subst hin
        by_cases ho : s.outcome = .ok
        · exact (k1 ho).1
        · rcases k2 ho with k | ⟨_, k, _⟩
          · exact absurd k nofail
          · exact k
    · exact Or.inr (ih hm h2)

theorem Trace.files_nil {cfg env db segs db'} (h : Trace cfg env db segs db')
    (he : (segs.map (·.files)).flatten = []) : segs = [] := by
  cases h with
  | nil => rfl
  | cons h _ _ =>
    simp at he
    exact absurd he.1 h.nonempty

/-- without lock timeouts a batch is attempted once -/
theorem GoodSeg.once {cfg env s db db'} (h : GoodSeg cfg env s db db') (hl : ∀ t, env.res t ≠ .lock) :
    s.attempts = [] ∨ ∃ a, s.attempts = [a] ∧ a <+: s.files := by
  have := h.attempts_lock hl
  match ha : s.attempts with
  | [] => exact Or.inl rfl
  | [a] => exact Or.inr ⟨a, rfl, h.attempts_prefix a (by simp [ha])⟩
  | _ :: _ :: _ => rw [ha] at this; simp at this

theorem GoodSeg.once_ok {cfg env s db db'} (h : GoodSeg cfg env s db db') (hl : ∀ t, env.res t ≠ .lock)
    (ho : s.outcome = .ok) : execs s.events = s.files := by
  have h1 := h.complete ho
  rw [h.execs_eq]
  rcases h.once hl with h2 | ⟨a, h2, _⟩
  · rw [h2] at h1; simp at h1
  · rw [h2] at h1; simp at h1; rw [h2]; simp [h1]

theorem execs_flatMap (segs : List Seg) : execs (segs.flatMap Seg.events) = segs.flatMap fun s => execs s.events := by
  induction segs with
  | nil => rfl
  | cons s segs ih => simp [execs_append, ih]

end MigrateSpec
