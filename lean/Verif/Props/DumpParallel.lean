import Verif.Spec.DumpParallel

/-!
# C92, C93: the files of a dump into a directory, in every order of the steps
-/

namespace Sqddl.DumpParallel
open Go DumpParallelSpec

theorem put_same {α β : Type} [DecidableEq α] (f : α → β) (i : α) (x : β) : put f i x i = x := by
  simp [put]

theorem put_other {α β : Type} [DecidableEq α] (f : α → β) {i j : α} (x : β) (h : j ≠ i) :
    put f i x j = f j := by
  simp [put, h]

/-- What holds of one table: `past` are the states of the database so far. -/
def Holds (u : Setup) (past : List (Nat → List Str)) (broken : Prop) (s : State) (i : Nat) : Prop :=
  match s.pcs i with
  | .start => True
  | .reading rows k pos => i < u.tables ∧ (∃ db ∈ past, rows = db i) ∧ k ≤ rows.length ∧
      pos ≤ (text (u.header i) rows k).length ∧
      s.files (u.name i) = some ((text (u.header i) rows k).take pos)
  | .done true => i < u.tables ∧ ∃ db ∈ past, ∃ k ≤ (db i).length,
      s.files (u.name i) = some (text (u.header i) (db i) k) ∧ (k < (db i).length → broken)
  | .done false => True

theorem text_prefix (header : Str) (rows : List Str) (k : Nat) :
    text header rows k <+: text header rows (k + 1) := by
  unfold text
  rw [List.take_add_one]
  simp only [List.flatten_append, ← List.append_assoc]
  exact List.prefix_append _ _

theorem take_of_prefix {a b : Str} (h : a <+: b) {pos : Nat} (hp : pos ≤ a.length) :
    a.take pos = b.take pos := by
  obtain ⟨c, rfl⟩ := h
  rw [List.take_append_of_le_length hp]

theorem writeAt_end {a b : Str} {pos : Nat} (hp : pos ≤ a.length) :
    writeAt (a.take pos) pos b = a.take pos ++ b := by
  unfold writeAt
  rw [List.take_take, Nat.min_self, List.drop_of_length_le (by simp; omega), List.append_nil]

theorem take_add_drop (a : Str) (pos m : Nat) :
    a.take pos ++ (a.drop pos).take m = a.take (pos + ((a.drop pos).take m).length) := by
  rw [List.take_add]
  congr 1
  rw [List.length_take]
  by_cases h : m ≤ (a.drop pos).length
  · rw [Nat.min_eq_left h]
  · rw [Nat.min_eq_right (by omega), List.take_of_length_le (Nat.le_refl _), List.take_of_length_le (by omega)]

/-- The states of the database during a dump. -/
def states (u : Setup) (s : State) : List Event → List (Nat → List Str)
  | [] => [s.db]
  | e :: es => s.db :: states u (step u s e) es

/-- A table whose goroutine and file were not touched. -/
theorem holds_other {u : Setup} {past past' : List (Nat → List Str)} {broken broken' : Prop} {s t : State}
    {i : Nat} (h : Holds u past broken s i) (hp : ∀ x ∈ past, x ∈ past') (hb : broken → broken')
    (hpc : t.pcs i = s.pcs i) (hf : i < u.tables → t.files (u.name i) = s.files (u.name i)) :
    Holds u past' broken' t i := by
  unfold Holds at h ⊢
  rw [hpc]
  split
  · trivial
  · rename_i rows k pos e
    rw [e] at h
    obtain ⟨h1, ⟨db, h2, h3⟩, h4, h5, h6⟩ := h
    exact ⟨h1, ⟨db, hp db h2, h3⟩, h4, h5, (hf h1).trans h6⟩
  · rename_i e
    rw [e] at h
    obtain ⟨h1, db, h2, k, h3, h4, h5⟩ := h
    exact ⟨h1, db, hp db h2, k, h3, (hf h1).trans h4, fun hk => hb (h5 hk)⟩
  · trivial

theorem holds_step {u : Setup} (hd : DistinctFiles u) {past past' : List (Nat → List Str)}
    {broken : Nat → Prop} {s : State} (h : ∀ i, Holds u past (broken i) s i) (hdb : s.db ∈ past)
    (e : Event) (hp : ∀ x ∈ past, x ∈ past') (hb : ∀ i, e = .run i .broken → broken i) :
    ∀ i, Holds u past' (broken i) (step u s e) i := by
  have keep : ∀ i, Holds u past' (broken i) s i := fun i =>
    holds_other (h i) hp id rfl (fun _ => rfl)
  have others : ∀ (j : Nat) (f : Option Str) (q : Pc), j < u.tables →
      Holds u past' (broken j) { s with files := put s.files (u.name j) f, pcs := put s.pcs j q } j →
      ∀ i, Holds u past' (broken i) { s with files := put s.files (u.name j) f, pcs := put s.pcs j q } i := by
    intro j f q hj hq i
    by_cases hij : i = j
    · subst hij; exact hq
    · refine holds_other (h i) hp id (put_other _ _ hij) fun hi => ?_
      exact put_other _ _ fun e => hij (hd i hi j hj e)
  have others' : ∀ (j : Nat) (q : Pc), Holds u past' (broken j) { s with pcs := put s.pcs j q } j →
      ∀ i, Holds u past' (broken i) { s with pcs := put s.pcs j q } i := by
    intro j q hq i
    by_cases hij : i = j
    · subst hij; exact hq
    · exact holds_other (h i) hp id (put_other _ _ hij) fun _ => rfl
  have hfinish : ∀ j rows k pos, s.pcs j = .reading rows k pos → (k < rows.length → broken j) →
      ∀ i, Holds u past' (broken i) (finish u s j rows k pos) i := by
    intro j rows k pos hj hk
    have hh := h j
    unfold Holds at hh
    rw [hj] at hh
    obtain ⟨h1, ⟨db, h2, h3⟩, h4, h5, h6⟩ := hh
    refine others j _ _ h1 ?_
    unfold Holds
    simp only [put_same]
    subst h3
    refine ⟨h1, db, hp db h2, k, h4, ?_, hk⟩
    rw [h6, Option.getD_some, writeAt_end h5, List.take_append_drop]
  cases e with
  | other db => exact fun i => holds_other (h i) hp id rfl (fun _ => rfl)
  | flush j m =>
    unfold step
    dsimp only
    split
    · rename_i rows k pos hj
      have hh := h j
      unfold Holds at hh
      rw [hj] at hh
      obtain ⟨h1, ⟨db, h2, h3⟩, h4, h5, h6⟩ := hh
      refine others j _ _ h1 ?_
      unfold Holds
      simp only [put_same]
      refine ⟨h1, ⟨db, hp db h2, h3⟩, h4, ?_, ?_⟩
      · rw [List.length_take, List.length_drop]; omega
      · rw [h6, Option.getD_some, writeAt_end h5, take_add_drop]
    · exact keep
  | run j o =>
    unfold step
    dsimp only
    split
    · split
      · rename_i hs hj
        cases o with
        | ok =>
          refine others j _ _ hj ?_
          unfold Holds
          simp only [put_same]
          exact ⟨hj, ⟨s.db, hp _ hdb, rfl⟩, Nat.zero_le _, Nat.zero_le _, rfl⟩
        | err => exact others' j _ (by unfold Holds; simp only [put_same])
        | noQuery => exact others j _ _ hj (by unfold Holds; simp only [put_same])
        | broken => exact others j _ _ hj (by unfold Holds; simp only [put_same])
      · exact keep
    · rename_i rows k pos hj
      cases o with
      | ok =>
        dsimp only
        split
        · rename_i hk
          have hh := h j
          unfold Holds at hh
          rw [hj] at hh
          obtain ⟨h1, ⟨db, h2, h3⟩, h4, h5, h6⟩ := hh
          refine others' j _ ?_
          unfold Holds
          simp only [put_same]
          have hpre := text_prefix (u.header j) rows k
          exact ⟨h1, ⟨db, hp db h2, h3⟩, hk, Nat.le_trans h5 hpre.length_le,
            h6.trans (congrArg some (take_of_prefix hpre h5))⟩
        · rename_i hk
          exact hfinish j rows k pos hj fun h => absurd h hk
      | err => exact others' j _ (by unfold Holds; simp only [put_same])
      | noQuery => exact others' j _ (by unfold Holds; simp only [put_same])
      | broken => exact hfinish j rows k pos hj fun _ => hb j rfl
    · exact keep

theorem holds_run {u : Setup} (hd : DistinctFiles u) (es : List Event) :
    ∀ (s : State) (past : List (Nat → List Str)) (broken : Nat → Prop),
      (∀ i, Holds u past (broken i) s i) → s.db ∈ past → (∀ i, ¬ Unbroken i es → broken i) →
      ∀ i, Holds u (past ++ states u s es) (broken i) (run u s es) i := by
  induction es with
  | nil =>
    intro s past broken h _ _ i
    exact holds_other (h i) (by simp +contextual) id rfl (fun _ => rfl)
  | cons e es ih =>
    intro s past broken h hdb hb i
    have h1 := holds_step hd (past' := past ++ [(step u s e).db]) h hdb e (by simp +contextual)
      (fun j hj => hb j (by subst hj; simp [Unbroken]))
    have h2 := ih (step u s e) (past ++ [(step u s e).db]) broken h1 (by simp)
      (fun j hj => hb j (by simp only [Unbroken, List.mem_cons, Classical.not_not] at hj ⊢; exact Or.inr hj)) i
    refine holds_other h2 ?_ id rfl (fun _ => rfl)
    intro x hx
    simp only [List.mem_append, states, List.mem_cons, List.not_mem_nil, or_false] at hx ⊢
    have hst : (step u s e).db ∈ states u (step u s e) es := by
      cases es <;> simp [states]
    rcases hx with (h | rfl) | h
    · exact Or.inl h
    · exact Or.inr (Or.inr hst)
    · exact Or.inr (Or.inr h)

/-- Whatever the order of the steps: the file of a table whose goroutine returned without error holds
the header and the first rows the table had at some time during the dump, and all of them unless the
connection broke.  Needed: no two tables have the same file name. -/
theorem dump_dir_file {u : Setup} (hd : DistinctFiles u) (s : State) (hs : Fresh s) (es : List Event)
    (i : Nat) (hi : (run u s es).pcs i = .done true) :
    ∃ db ∈ states u s es, ∃ k,
      (run u s es).files (u.name i) = some (whole (u.header i) ((db i).take k)) ∧
      (Unbroken i es → (run u s es).files (u.name i) = some (whole (u.header i) (db i))) := by
  have h := holds_run hd es s [s.db] (fun i => ¬ Unbroken i es)
    (fun j => by unfold Holds; rw [hs j]; trivial) (by simp) (fun j hj => hj) i
  unfold Holds at h
  rw [hi] at h
  obtain ⟨_, db, h1, k, h2, h3, h4⟩ := h
  refine ⟨db, ?_, k, h3, fun hu => ?_⟩
  · simp only [List.cons_append, List.nil_append, List.mem_cons] at h1
    rcases h1 with rfl | h1
    · cases es <;> simp [states]
    · exact h1
  · have : k = (db i).length := by
      by_cases hk : k < (db i).length
      · exact absurd hu (h4 hk)
      · omega
    rw [h3, this]
    simp [text, whole]

theorem states_alone {u : Setup} (es : List Event) :
    ∀ s : State, Alone es → ∀ db ∈ states u s es, db = s.db := by
  induction es with
  | nil => intro s _ db h; simpa [states] using h
  | cons e es ih =>
    intro s ha db h
    simp only [states, List.mem_cons] at h
    rcases h with h | h
    · exact h
    · rw [ih _ (fun d hd => ha d (by simp [hd])) db h]
      cases e with
      | other d => exact absurd (by simp) (ha d)
      | flush j m => unfold step; dsimp only; split <;> rfl
      | run j o =>
        unfold step
        dsimp only
        split
        · split
          · cases o <;> rfl
          · rfl
        · cases o
          · dsimp only; split <;> rfl
          all_goals rfl
        · rfl

/-- A dump that succeeded, of a database that no one else was changing and whose connections did not
break, has in every file the header and all rows of its table, whatever the order of the steps. -/
theorem dump_dir_complete_partial {u : Setup} (hd : DistinctFiles u) (s : State) (hs : Fresh s)
    (es : List Event) (hok : Succeeded u (run u s es)) (ha : Alone es) (hu : ∀ i, Unbroken i es) :
    ∀ i < u.tables, (run u s es).files (u.name i) = some (whole (u.header i) (s.db i)) := by
  intro i hi
  obtain ⟨db, h1, k, _, h2⟩ := dump_dir_file hd s hs es i (hok i hi)
  rw [h2 (hu i), states_alone es s ha db h1]

/-- Two tables. -/
def two : Setup where
  tables := 2
  name i := if i = 0 then b!"a.csv" else b!"b.csv"
  header i := if i = 0 then b!"id\n" else b!"a_id\n"

/-- A database before a dump. -/
def before : State where
  db i := if i = 0 then [b!"1\n", b!"2\n"] else [b!"1\n"]

/-- The two tables, taking turns. -/
def turns : List Event :=
  [.run 0 .ok, .run 1 .ok, .run 0 .ok, .flush 0 4, .run 1 .ok, .flush 1 2, .run 0 .ok, .run 1 .ok, .run 0 .ok]

example : DistinctFiles two ∧ Fresh before ∧ Succeeded two (run two before turns) ∧ Alone turns ∧
    (∀ i, Unbroken i turns) ∧ (run two before turns).files b!"a.csv" = some b!"id\n1\n2\n" := by
  refine ⟨?_, fun _ => rfl, ?_, fun db h => by simp [turns] at h, fun i h => by simp [turns] at h,
    by decide +kernel⟩
  · intro i hi j hj h
    have hi : i < 2 := hi
    have hj : j < 2 := hj
    rcases i with _ | _ | i
    · rcases j with _ | _ | j
      · rfl
      · exact absurd h (by decide)
      · omega
    · rcases j with _ | _ | j
      · exact absurd h (by decide)
      · rfl
      · omega
    · omega
  · intro i hi
    rcases i with _ | _ | i
    · decide +kernel
    · decide +kernel
    · exact absurd hi (by show ¬ (i + 2 < 2); omega)

/-- The full claim fails when the connection breaks while the rows are being read: `rows.Err` is not
looked at, so the dump succeeds and rows are missing. -/
theorem dump_broken_refuted :
    ¬ ∀ (u : Setup) (s : State) (es : List Event), u.tables = 1 → Fresh s → Alone es →
      Succeeded u (run u s es) →
      ∀ i < u.tables, (run u s es).files (u.name i) = some (whole (u.header i) (s.db i)) := by
  intro h
  have := h { two with tables := 1 } before [.run 0 .ok, .run 0 .ok, .run 0 .broken] rfl (fun _ => rfl)
    (fun db h => by simp at h) (by
      intro i hi
      rcases i with _ | i
      · decide +kernel
      · exact absurd hi (by show ¬ (i + 1 < 1); omega)) 0 (by decide)
  revert this
  decide +kernel

/-- Two tables with one file: what is left belongs to neither of them. -/
theorem dump_same_file_refuted :
    ¬ ∀ (u : Setup) (s : State) (es : List Event), Fresh s → Alone es → (∀ i, Unbroken i es) →
      Succeeded u (run u s es) →
      ∀ i < u.tables, ∃ j < u.tables, u.name j = u.name i ∧
        (run u s es).files (u.name i) = some (whole (u.header j) (s.db j)) := by
  intro h
  have := h { two with name := fun _ => b!"a.csv" }
    { before with db := fun i => if i = 0 then [b!"1\n", b!"2\n", b!"3\n"] else [b!"1\n"] }
    [.run 0 .ok, .run 1 .ok, .run 0 .ok, .run 0 .ok, .run 0 .ok, .run 0 .ok, .run 1 .ok, .run 1 .ok]
    (fun _ => rfl) (fun db h => by simp at h) (fun i h => by simp at h) (by
      intro i hi
      rcases i with _ | _ | i
      · decide +kernel
      · decide +kernel
      · exact absurd hi (by show ¬ (i + 2 < 2); omega)) 0 (by decide)
  obtain ⟨j, hj, _, h⟩ := this
  revert h
  rcases j with _ | _ | j
  · decide +kernel
  · decide +kernel
  · exact absurd hj (by show ¬ (j + 2 < 2); omega)

/-! ## C93: the files show one state of the database -/

/-- If no one else changes the database the files of a dump show one state of it. -/
theorem dump_snapshot_partial {u : Setup} (hd : DistinctFiles u) (s : State) (hs : Fresh s)
    (es : List Event) (hok : Succeeded u (run u s es)) (ha : Alone es) (hu : ∀ i, Unbroken i es) :
    ∃ db ∈ states u s es, ∀ i < u.tables,
      (run u s es).files (u.name i) = some (whole (u.header i) (db i)) :=
  ⟨s.db, by cases es <;> simp [states], dump_dir_complete_partial hd s hs es hok ha hu⟩

/-- The full claim fails: a row of `a` and a row of `b` that refers to it are added by others between
the queries of the two tables; the dump succeeds and its `b.csv` has a row without the row it refers
to, which no state of the database had. -/
theorem dump_snapshot_refuted :
    ¬ ∀ (u : Setup) (s : State) (es : List Event), DistinctFiles u → Fresh s → (∀ i, Unbroken i es) →
      Succeeded u (run u s es) → ∃ db ∈ states u s es, ∀ i < u.tables,
        (run u s es).files (u.name i) = some (whole (u.header i) (db i)) := by
  intro h
  obtain ⟨db, hm, hf⟩ := h two before
    [.run 0 .ok, .other (fun i => if i = 0 then [b!"1\n", b!"2\n", b!"3\n"] else [b!"3\n"]),
     .run 1 .ok, .run 0 .ok, .run 0 .ok, .run 0 .ok, .run 1 .ok, .run 1 .ok]
    (by
      intro i hi j hj h
      have hi : i < 2 := hi
      have hj : j < 2 := hj
      rcases i with _ | _ | i
      · rcases j with _ | _ | j
        · rfl
        · exact absurd h (by decide)
        · omega
      · rcases j with _ | _ | j
        · exact absurd h (by decide)
        · rfl
        · omega
      · omega) (fun _ => rfl) (fun i h => by simp at h) (by
      intro i hi
      rcases i with _ | _ | i
      · decide +kernel
      · decide +kernel
      · exact absurd hi (by show ¬ (i + 2 < 2); omega))
  have h0 := hf 0 (by decide)
  have h1 := hf 1 (by decide)
  simp only [states, List.mem_cons, List.not_mem_nil, or_false] at hm
  revert h0 h1
  rcases hm with rfl | rfl | rfl | rfl | rfl | rfl | rfl | rfl | rfl <;> decide +kernel

end Sqddl.DumpParallel
