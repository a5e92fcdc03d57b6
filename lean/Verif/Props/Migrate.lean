import Verif.Lemmas.MigrateTrace

/-!
# C01 - C11: what `migrate` does

`migrate cfg env fs (start db)` is a run of the command on the filenames `fs` against a database
in state `db`.  `env` decides the outcome of every database call (including death of the process
before or after the call), the contents of the files, the clock, and the hash function; the
theorems hold for all of them.
-/

namespace Sqddl.Migrate
open MigrateSpec FileSpec

/-! ## general shape of a run -/

/-- C02, C04, C08, C09, C11.  Whatever happens, a run is a sequence of batches processed one after
the other, all but the last completely (`Trace`, `GoodSeg`); the batches contain, in order, the
first of the pending files.  A successful run has processed all pending files completely.  A run
that does not succeed ends with its last batch, or before or between batches with an error that
names no file. -/
theorem migrate_runs_pending (cfg : Cfg) (env : Env) (fs : List Str) (db : DB)
    (hn : fs.Nodup) (hp : ∀ f ∈ fs, PlainName cfg.dialect f) :
    ∃ segs : List Seg,
      (migrate cfg env fs (start db)).2.log = segs.flatMap Seg.events ∧
      Trace cfg env db segs (migrate cfg env fs (start db)).2.db ∧
      (segs.map (·.files)).flatten <+: pending cfg env db.hist fs ∧
      ((migrate cfg env fs (start db)).1 = .ok →
        (segs.map (·.files)).flatten = pending cfg env db.hist fs ∧ ∀ s ∈ segs, s.outcome = .ok) ∧
      ((migrate cfg env fs (start db)).1 ≠ .ok →
        (∃ a s, segs = a ++ [s] ∧ s.outcome = (migrate cfg env fs (start db)).1) ∨
        ((∀ s ∈ segs, s.outcome = .ok) ∧ ((migrate cfg env fs (start db)).1 = .crashed ∨
          ∃ e, (migrate cfg env fs (start db)).1 = .error none e false))) := by
  obtain ⟨segs, h1, h2, ⟨q, h3, _, h4, h5⟩, h6⟩ := migrate_trace cfg env fs db
  have ht := queued_todo env (selectRows cfg (sortAndFilter fs) db.hist) (sortAndFilter fs)
    (sortAndFilter_nodup hn)
  rw [todo_pending cfg env db.hist fs hp, ← h4] at ht
  refine ⟨segs, h1, h2, h3.trans ht.1, ?_, h6⟩
  intro ho
  obtain ⟨k1, k2, k3⟩ := h5 ho
  exact ⟨k1.trans (ht.2 k2), k3⟩

theorem pending_sublist (cfg : Cfg) (env : Env) (h : History) (fs : List Str) :
    (pending cfg env h fs).Sublist (sortAndFilter fs) := by
  classical
  have e : pending cfg env h fs =
      (sortAndFilter fs).filter fun f => cfg.skipHistory || decide (¬ UpToDate env h f) := by
    rw [sortAndFilter_eq, List.filter_append, List.filter_filter, List.filter_filter, pending]
    congr 1
    · apply List.filter_congr
      intro f _
      rw [← isMigrationFile_iff, ← isRepeatable_iff]
      cases isMigrationFile f <;> cases isRepeatable f <;> simp
    · apply List.filter_congr
      intro f _
      rw [← isMigrationFile_iff, ← isRepeatable_iff]
      cases isMigrationFile f <;> cases isRepeatable f <;> simp
  rw [e]; exact List.filter_sublist

theorem pending_nodup {cfg : Cfg} {env : Env} {h : History} {fs : List Str} (hn : fs.Nodup) :
    (pending cfg env h fs).Nodup :=
  (sortAndFilter_nodup hn).sublist (pending_sublist cfg env h fs)

theorem mem_pending {cfg : Cfg} {env : Env} {h : History} {fs : List Str} {f : Str} :
    f ∈ pending cfg env h fs ↔ f ∈ fs ∧ IsMigration f ∧ (cfg.skipHistory = true ∨ ¬ UpToDate env h f) := by
  unfold pending
  by_cases hr : Repeatable f <;> simp [hr]

/-- if exactly the files of a prefix `p` became up to date, the rest is what is pending -/
theorem pending_after {cfg : Cfg} {env env2 : Env} {h h' : History} {fs p rest : List Str} (hn : fs.Nodup)
    (hk : cfg.skipHistory = false) (hpend : pending cfg env h fs = p ++ rest)
    (hup : ∀ f ∈ fs, IsMigration f → (UpToDate env2 h' f ↔ UpToDate env h f ∨ f ∈ p)) :
    pending cfg env2 h' fs = rest := by
  classical
  have e : pending cfg env2 h' fs = (pending cfg env h fs).filter fun f => decide (f ∉ p) := by
    rw [pending, pending, List.filter_append, List.filter_filter, List.filter_filter]
    congr 1
    · apply List.filter_congr
      intro f hf
      by_cases hm : IsMigration f
      · simp only [hup f hf hm, hk]
        by_cases h1 : UpToDate env h f <;> by_cases h2 : f ∈ p <;> by_cases h3 : Repeatable f <;>
          simp [h1, h2, h3, hm]
      · simp [hm]
    · apply List.filter_congr
      intro f hf
      by_cases hm : IsMigration f
      · simp only [hup f hf hm, hk]
        by_cases h1 : UpToDate env h f <;> by_cases h2 : f ∈ p <;> by_cases h3 : Repeatable f <;>
          simp [h1, h2, h3, hm]
      · simp [hm]
  have hnd := pending_nodup (cfg := cfg) (env := env) (h := h) hn
  rw [hpend] at hnd
  rw [e, hpend, List.filter_append]
  have e1 : p.filter (fun f => decide (f ∉ p)) = [] := by
    rw [List.filter_eq_nil_iff]; simp
  have e2 : rest.filter (fun f => decide (f ∉ p)) = rest := by
    rw [List.filter_eq_self]
    intro f hf
    rw [List.nodup_append] at hnd
    simp only [decide_eq_true_eq]
    intro hfp
    exact hnd.2.2 f hfp f hf rfl
  rw [e1, e2]; rfl

/-! ## C01 -/

theorem mkMigs_cons (sel : History) (g : Str) (fs : List Str) :
    mkMigs sel (g :: fs) = mig g (if g ∈ fs then none else sel g) :: mkMigs sel fs := by
  rw [mkMigs]
  by_cases h : g ∈ fs
  · simp [h, mig]
  · simp only [h, if_false]
    cases sel g <;> rfl

theorem queued_not_uptodate (env : Env) (sel : History) (fs : List Str) (f : Str)
    (hc : fs.count f ≤ 1) (h : f ∈ names (queued env (mkMigs sel fs))) : ¬ UpToDate env sel f := by
  induction fs with
  | nil => simp [mkMigs, queued] at h
  | cons g fs ih =>
    rw [mkMigs_cons, queued] at h
    by_cases hg : g = f
    · subst hg
      have hnot : g ∉ fs := by
        rw [List.count_cons_self] at hc
        exact List.count_eq_zero.1 (by omega)
      have notin : ¬ g ∈ names (queued env (mkMigs sel fs)) := by
        intro hm
        have := (queued_names_sublist env (mkMigs sel fs)).subset hm
        rw [mkMigs_names] at this
        exact hnot this
      rw [if_neg hnot] at h
      rcases decision_spec env sel g with ⟨h1, _⟩ | ⟨h1, _, _, h2⟩ | ⟨m, h1, h3, h2⟩
      · rw [h1] at h; exact absurd h notin
      · exact h2
      · exact h2
    · have hc' : fs.count f ≤ 1 := by
        rw [List.count_cons_of_ne hg] at hc; exact hc
      generalize (if g ∈ fs then none else sel g) = o at h
      cases hd : decision env (mig g o) with
      | skip => rw [hd] at h; exact ih hc' h
      | openError => rw [hd] at h; simp at h
      | queue m' =>
        have hm' : m'.filename = g := by
          rw [← mig_filename g o]
          revert hd
          unfold decision
          dsimp only
          repeat' split
          all_goals simp
          all_goals (rintro rfl; simp)
        rw [hd] at h
        simp only [names_cons, List.mem_cons, hm'] at h
        rcases h with h | h
        · exact absurd h.symm hg
        · exact ih hc' h

theorem count_sortAndFilter_le (fs : List Str) (f : Str) : (sortAndFilter fs).count f ≤ fs.count f := by
  by_cases hm : IsMigration f
  · exact Nat.le_of_eq ((sortAndFilter_count fs f).1 hm)
  · rw [List.count_eq_zero_of_not_mem ((sortAndFilter_count fs f).2 hm)]; omega

/-- C01.  A file that is recorded as applied is not executed, has no effect and keeps its row,
whatever happens.  Partial: the file must not be listed twice, and its name must survive being
written as a SQL literal (both conditions are needed, see the refutations below). -/
theorem migrate_skips_applied_partial (cfg : Cfg) (env : Env) (fs : List Str) (db : DB) (f : Str)
    (hk : cfg.skipHistory = false) (hr : ¬ Repeatable f) (hc : fs.count f ≤ 1)
    (hp : PlainName cfg.dialect f) (happ : ∃ r, db.hist f = some r ∧ r.success = true) :
    let x := migrate cfg env fs (start db)
    f ∉ execs x.2.log ∧ .undo f ∉ x.2.log ∧ x.2.db.hist f = db.hist f ∧
    ∃ es, x.2.db.eff = db.eff ++ es ∧ .script f ∉ es ∧ .part f ∉ es ∧ .undo f ∉ es := by
  dsimp only
  obtain ⟨segs, h1, h2, ⟨q, h3, _, h4, _⟩, _⟩ := migrate_trace cfg env fs db
  have hup : UpToDate env db.hist f := by
    obtain ⟨r, a, b⟩ := happ
    exact ⟨r, a, b, fun h => absurd h hr⟩
  have hnot : f ∉ (segs.map (·.files)).flatten := by
    intro hm
    have hq := h3.subset hm
    rw [h4] at hq
    refine queued_not_uptodate env _ _ f (Nat.le_trans (count_sortAndFilter_le fs f) hc) hq ?_
    have hmem : f ∈ sortAndFilter fs := by
      have := (queued_names_sublist env _).subset hq
      rwa [mkMigs_names] at this
    rw [upToDate_sel cfg env _ _ f hmem hp]
    exact ⟨hk, hup⟩
  have hseg : ∀ s ∈ segs, f ∉ s.files := by
    intro s hs hf
    exact hnot (List.mem_flatten.2 ⟨_, List.mem_map.2 ⟨s, hs, rfl⟩, hf⟩)
  have hev : ∀ e, (e = .exec f ∨ e = .undo f) → e ∉ segs.flatMap Seg.events := by
    intro e he hm
    obtain ⟨s, hs, hm⟩ := List.mem_flatMap.1 hm
    obtain ⟨a, b, hg⟩ := Trace.good h2 s hs
    refine hseg s hs (hg.execs_mem f ?_)
    rcases he with rfl | rfl
    · exact Or.inl hm
    · exact Or.inr hm
  refine ⟨?_, ?_, Trace.frame h2 f hnot, _, Trace.eff h2, ?_⟩
  · rw [h1]
    intro hm
    rw [execs_flatMap] at hm
    obtain ⟨s, hs, hm⟩ := List.mem_flatMap.1 hm
    obtain ⟨a, b, hg⟩ := Trace.good h2 s hs
    rw [hg.execs_eq] at hm
    obtain ⟨at', ha, hm⟩ := List.mem_flatten.1 hm
    exact hseg s hs ((hg.attempts_prefix at' ha).subset hm)
  · rw [h1]; exact hev _ (Or.inr rfl)
  · have heff : ∀ e, (e = .script f ∨ e = .part f ∨ e = .undo f) → e ∉ segs.flatMap Seg.effects := by
      intro e he hm
      obtain ⟨s, hs, hm⟩ := List.mem_flatMap.1 hm
      obtain ⟨a, b, hg⟩ := Trace.good h2 s hs
      obtain ⟨g, hgf, hge⟩ := hg.effects_files e hm
      have : g = f := by
        rcases he with rfl | rfl | rfl <;> simp at hge <;> exact hge.symm
      subst this
      exact hseg s hs hgf
    exact ⟨heff _ (by simp), heff _ (by simp), heff _ (by simp)⟩

/-- One run after the other, each with its own configuration, environment and list of names. -/
def migrateAll : List (Cfg × Env × List Str) → DB → DB × List Ev
  | [], db => (db, [])
  | (cfg, env, fs) :: rs, db =>
    let x := migrate cfg env fs (start db)
    let y := migrateAll rs x.2.db
    (y.1, x.2.log ++ y.2)

/-- C01, over any number of runs with any crashes and failures. -/
theorem migrate_never_again_partial (rs : List (Cfg × Env × List Str)) (db : DB) (f : Str)
    (hr : ¬ Repeatable f)
    (hrs : ∀ x ∈ rs, x.1.skipHistory = false ∧ x.2.2.count f ≤ 1 ∧ PlainName x.1.dialect f)
    (happ : ∃ r, db.hist f = some r ∧ r.success = true) :
    f ∉ execs (migrateAll rs db).2 ∧ (migrateAll rs db).1.hist f = db.hist f := by
  induction rs generalizing db with
  | nil => simp [migrateAll, execs]
  | cons x rs ih =>
    obtain ⟨cfg, env, fs⟩ := x
    obtain ⟨k1, k2, k3⟩ := hrs (cfg, env, fs) (by simp)
    obtain ⟨h1, _, h2, _⟩ := migrate_skips_applied_partial cfg env fs db f k1 hr k2 k3 happ
    obtain ⟨h3, h4⟩ := ih (migrate cfg env fs (start db)).2.db (fun x hx => hrs x (by simp [hx]))
      (by rw [h2]; exact happ)
    refine ⟨?_, ?_⟩
    · simp only [migrateAll, execs_append, List.mem_append, not_or]
      exact ⟨h1, h3⟩
    · simp only [migrateAll]; rw [h4, h2]

/-- A database without history. -/
def emptyDB : DB := ⟨[], fun _ => none⟩

/-- Default settings for the examples. -/
def cfg0 (d : Dialect) : Cfg := ⟨d, false, 10, second, 300 * second⟩

/-- All calls succeed, every file can be read and contains `contents`, the hash is the text. -/
def env0 (contents : Str) : Env :=
  ⟨fun _ => .ok, fun _ => some contents, fun s => s, fun t => t, fun _ => 0, fun _ => 0⟩

/-- One file applied. -/
def applied (f : Str) : DB := ⟨[.script f], emptyDB.hist.upsert f ⟨[], some 0, true⟩⟩

example : execs (migrate (cfg0 .postgres) (env0 b!"SELECT 1;") [b!"02.sql", b!"01.sql"]
    (start (applied b!"01.sql"))).2.log = [b!"02.sql"] ∧
    PlainName .postgres b!"01.sql" ∧ ¬ Repeatable b!"01.sql" := by
  refine ⟨by decide +kernel, ⟨?_, by simp⟩, ?_⟩
  · rintro ⟨a, c, b, h⟩
    have : '\'' ∈ b!"01.sql" := by rw [h]; simp
    revert this; decide
  · rw [← isRepeatable_iff]; decide

/-- C01 fails for a file that is listed twice. -/
theorem migrate_applied_twice_listed_refuted :
    ∃ fs f, ¬ Repeatable f ∧ PlainName .postgres f ∧ (applied f).hist f = some ⟨[], some 0, true⟩ ∧
      f ∈ execs (migrate (cfg0 .postgres) (env0 b!"SELECT 1;") fs (start (applied f))).2.log := by
  refine ⟨[b!"01.sql", b!"01.sql"], b!"01.sql", ?_, ⟨?_, by simp⟩, by decide +kernel, by decide +kernel⟩
  · rw [← isRepeatable_iff]; decide
  · rintro ⟨a, c, b, h⟩
    have : '\'' ∈ b!"01.sql" := by rw [h]; simp
    revert this; decide

/-- C01 fails for a file with two adjacent single quotes in its name. -/
theorem migrate_applied_quoted_name_refuted :
    ∃ f, ¬ Repeatable f ∧ (applied f).hist f = some ⟨[], some 0, true⟩ ∧
      f ∈ execs (migrate (cfg0 .postgres) (env0 b!"SELECT 1;") [f] (start (applied f))).2.log := by
  refine ⟨b!"it''s.sql", ?_, by decide +kernel, by decide +kernel⟩
  rw [← isRepeatable_iff]; decide

/-! ## C02 -/

theorem flatMap_sublist {segs : List Seg} {g : Seg → List Str}
    (h : ∀ s ∈ segs, (g s).Sublist s.files) :
    (segs.flatMap g).Sublist (segs.map (·.files)).flatten := by
  induction segs with
  | nil => simp
  | cons s segs ih =>
    simp only [List.flatMap_cons, List.map_cons, List.flatten_cons]
    exact (h s (by simp)).append (ih fun s hs => h s (by simp [hs]))

/-- C02.  For every list of names, history and environment, the batches that are processed
contain, in order, a subsequence of the selected files; each attempt at a batch executes its first
files, in order.  (For the order of the selected files see `sortAndFilter_order`.) -/
theorem migrate_order (cfg : Cfg) (env : Env) (fs : List Str) (db : DB) :
    ∃ segs : List Seg, (migrate cfg env fs (start db)).2.log = segs.flatMap Seg.events ∧
      ((segs.map (·.files)).flatten).Sublist (sortAndFilter fs) ∧
      ∀ s ∈ segs, execs s.events = s.attempts.flatten ∧ ∀ a ∈ s.attempts, a <+: s.files := by
  obtain ⟨segs, h1, h2, ⟨q, h3, _, h4, _⟩, _⟩ := migrate_trace cfg env fs db
  refine ⟨segs, h1, ?_, ?_⟩
  · refine h3.sublist.trans ?_
    rw [h4]
    have := queued_names_sublist env (mkMigs (selectRows cfg (sortAndFilter fs) db.hist) (sortAndFilter fs))
    rwa [mkMigs_names] at this
  · intro s hs
    obtain ⟨a, b, hg⟩ := Trace.good h2 s hs
    exact ⟨hg.execs_eq, hg.attempts_prefix⟩

/-- C02, when no lock timeout occurs: the scripts executed are a subsequence of the selected
files: first listed files that are not repeatable, then repeatable ones, each in listed order. -/
theorem migrate_executes_in_order (cfg : Cfg) (env : Env) (fs : List Str) (db : DB)
    (hl : ∀ t, env.res t ≠ .lock) :
    ∃ l r, execs (migrate cfg env fs (start db)).2.log = l ++ r ∧ l.Sublist fs ∧ r.Sublist fs ∧
      (∀ f ∈ l, IsMigration f ∧ ¬ Repeatable f) ∧ (∀ f ∈ r, IsMigration f ∧ Repeatable f) := by
  obtain ⟨segs, h1, h2, ⟨q, h3, _, h4, _⟩, _⟩ := migrate_trace cfg env fs db
  have hs : (execs (migrate cfg env fs (start db)).2.log).Sublist (sortAndFilter fs) := by
    rw [h1, execs_flatMap]
    refine (flatMap_sublist ?_).trans (h3.sublist.trans ?_)
    · intro s hs
      obtain ⟨a, b, hg⟩ := Trace.good h2 s hs
      rw [hg.execs_eq]
      rcases hg.once hl with h | ⟨a, h, ha⟩
      · simp [h]
      · simpa [h] using ha.sublist
    · rw [h4]
      have := queued_names_sublist env (mkMigs (selectRows cfg (sortAndFilter fs) db.hist) (sortAndFilter fs))
      rwa [mkMigs_names] at this
  rw [sortAndFilter_eq] at hs
  obtain ⟨l, r, e, hl', hr'⟩ := List.sublist_append_iff.1 hs
  refine ⟨l, r, e, hl'.trans List.filter_sublist, hr'.trans List.filter_sublist, ?_, ?_⟩
  · intro f hf
    have := hl'.subset hf
    simp at this
    rw [← isMigrationFile_iff, ← isRepeatable_iff]; simp [this.2]
  · intro f hf
    have := hr'.subset hf
    simp at this
    rw [← isMigrationFile_iff, ← isRepeatable_iff]; simp [this.2]

example : execs (migrate (cfg0 .mysql) (env0 b!"SELECT 1;")
    [b!"repeatable/v.sql", b!"02.sql", b!"01.sql", b!"schema.sql"] (start emptyDB)).2.log =
    [b!"02.sql", b!"01.sql", b!"repeatable/v.sql"] := by decide +kernel

/-! ## C03 -/

/-- C03, one batch.  A batch that runs in a transaction has all its effects and all its success
rows, or none of them, whatever the outcome of each database call and wherever the process dies. -/
theorem runWithRetry_atomic (cfg : Cfg) (env : Env) (q : List Mig) (st : St) (htx : st.tx = none)
    (hne : q ≠ []) (hT : InTx cfg.dialect (names q)) :
    let x := runWithRetry cfg env q st
    (x.2.db.eff = st.db.eff ++ (names q).map .script ∧
      (cfg.skipHistory = true → x.2.db.hist = st.db.hist) ∧
      (cfg.skipHistory = false → (∀ f ∈ names q, ∃ r, x.2.db.hist f = some r ∧ r.success = true) ∧
        ∀ g, g ∉ names q → x.2.db.hist g = st.db.hist g)) ∨
    (x.1 ≠ .ok ∧ x.2.db.eff = st.db.eff ∧ RowsFailed (names q) st.db.hist x.2.db.hist) := by
  dsimp only
  have hT' := (isTx_iff _ _ hne).2 hT
  unfold runWithRetry
  dsimp only
  split
  · rename_i h; rw [hT'] at h; simp at h
  · have h := retryLoop_spec cfg env q hne (cfg.maxAttempts - 1).toNat 1
      (st.logEv (.batch (q.map (·.filename)))) htx
    rcases h.intx hT' with ⟨h1, _⟩ | ⟨h1, h2, h3⟩
    · left
      refine ⟨h1.eff, h1.skip, fun hk => ⟨?_, (h1.rows hk).frame⟩⟩
      intro f hf
      obtain ⟨m, hm, rfl⟩ := List.mem_map.1 hf
      exact (h1.rows hk).rows m hm
    · exact Or.inr ⟨h1, h2, h3⟩

/-- Every file runs in a transaction: not MySQL, and no `.txoff.sql` file is listed. -/
def AllTx (cfg : Cfg) (fs : List Str) : Prop :=
  cfg.dialect ≠ .mysql ∧ ∀ f ∈ fs, ¬ EndsWith f b!".txoff.sql"

theorem allTx_inTx {cfg : Cfg} {fs l : List Str} (h : AllTx cfg fs) (hl : ∀ f ∈ l, f ∈ fs) (hne : l ≠ []) :
    InTx cfg.dialect l := by
  match l, hne with
  | [f], _ => exact Or.inr ⟨f, rfl, Or.inl ⟨h.2 f (hl f (by simp)), h.1⟩⟩
  | _ :: _ :: _, _ => exact Or.inl (by simp)

/-- C03, a whole run in which everything is transactional: however it ends, a prefix of the
pending files has taken effect completely, these files are recorded, and no other file has a new
success row. -/
theorem migrate_atomic (cfg : Cfg) (env : Env) (fs : List Str) (db : DB)
    (hn : fs.Nodup) (hp : ∀ f ∈ fs, PlainName cfg.dialect f) (hT : AllTx cfg fs) :
    let x := migrate cfg env fs (start db)
    ∃ p, p <+: pending cfg env db.hist fs ∧ x.2.db.eff = db.eff ++ p.map .script ∧
      (cfg.skipHistory = false → ∀ f ∈ p, UpToDate env x.2.db.hist f) ∧
      (∀ f, f ∉ p → x.2.db.hist f = db.hist f ∨ ∃ r, x.2.db.hist f = some r ∧ r.success = false) ∧
      (x.1 = .ok → p = pending cfg env db.hist fs) := by
  dsimp only
  obtain ⟨segs, h1, h2, h3, h4, _⟩ := migrate_runs_pending cfg env fs db hn hp
  have hmem : ∀ f, f ∈ (segs.map (·.files)).flatten → f ∈ fs := fun f hf =>
    (mem_pending.1 (h3.subset hf)).1
  have hnd : ((segs.map (·.files)).flatten).Nodup := (pending_nodup hn).sublist h3.sublist
  have htx : ∀ s ∈ segs, InTx cfg.dialect s.files := by
    intro s hs
    obtain ⟨a, b, hg⟩ := Trace.good h2 s hs
    refine allTx_inTx hT ?_ hg.nonempty
    intro f hf
    exact hmem f (List.mem_flatten.2 ⟨_, List.mem_map.2 ⟨s, hs, rfl⟩, hf⟩)
  obtain ⟨p, k1, k2, k3, k4, k5⟩ := Trace.alltx h2 htx hnd
  refine ⟨p, k1.trans h3, k2, k3, k4, ?_⟩
  intro ho
  rw [k5 (h4 ho).2, (h4 ho).1]

/-- The environment in which call number `n` has outcome `r`, all others succeed. -/
def envAt (contents : Str) (n : Nat) (r : Res) : Env :=
  { env0 contents with res := fun t => if t = n then r else .ok }

-- the process dies during the second script of a batch: nothing is visible
example : (migrate (cfg0 .postgres) (envAt b!"SELECT 1;" 4 .crashAfter) [b!"01.sql", b!"02.sql"]
    (start emptyDB)).2.db.eff = [] := by decide +kernel

-- it dies after the commit: everything is visible
example : (migrate (cfg0 .postgres) (envAt b!"SELECT 1;" 6 .crashAfter) [b!"01.sql", b!"02.sql"]
    (start emptyDB)).2.db.eff = [.script b!"01.sql", .script b!"02.sql"] := by decide +kernel

/-! ## C04 -/

/-- C04.  If the run reports an error for file `f`, then `f` was pending; the batches before its
batch are complete and recorded; the only other effects are those of `f` itself, and only if it
ran outside a transaction; and without lock timeouts nothing listed after `f` was executed. -/
theorem migrate_stops_at_failure (cfg : Cfg) (env : Env) (fs : List Str) (db : DB)
    (hn : fs.Nodup) (hp : ∀ f ∈ fs, PlainName cfg.dialect f) (f : Str) (e : Err) (uf : Bool)
    (herr : (migrate cfg env fs (start db)).1 = .error (some f) e uf) :
    let x := migrate cfg env fs (start db)
    ∃ done a b, pending cfg env db.hist fs = done ++ a ++ f :: b ∧
      (cfg.skipHistory = false → ∀ g ∈ done, UpToDate env x.2.db.hist g) ∧
      (∃ es own, x.2.db.eff = db.eff ++ es ++ own ∧ (∀ g ∈ done, .script g ∈ es) ∧
        (∀ y ∈ es, ∃ g ∈ done, y = .script g ∨ y = .part g ∨ y = .undo g) ∧
        (own = [] ∨ (a = [] ∧ ¬ InTx cfg.dialect [f] ∧
          ∀ y ∈ own, y = .script f ∨ y = .part f ∨ y = .undo f))) ∧
      ((∀ t, env.res t ≠ .lock) → execs x.2.log = done ++ a ++ [f] ∨
        (execs x.2.log = done ++ a ∧ env.files f = none)) := by
  dsimp only
  obtain ⟨segs, h1, h2, h3, h4, h5⟩ := migrate_runs_pending cfg env fs db hn hp
  rcases h5 (by simp [herr]) with ⟨pre, s, hseg, hs⟩ | ⟨_, h6⟩
  · rw [herr] at hs
    have hgood := Trace.good h2
    obtain ⟨d1, d2, hg⟩ := hgood s (by simp [hseg])
    obtain ⟨a, b, ha, hb⟩ := hg.failing f e uf hs
    have hok : ∀ x ∈ pre, x.outcome = .ok := by
      intro x hx
      apply Trace.dropLast_ok h2
      rw [hseg]; simpa using hx
    obtain ⟨rest, hrest⟩ := h3
    have hnd : ((segs.map (·.files)).flatten).Nodup :=
      (pending_nodup hn).sublist (List.IsPrefix.sublist ⟨rest, hrest⟩)
    refine ⟨(pre.map (·.files)).flatten, a, b ++ rest, ?_, ?_, ?_, ?_⟩
    · rw [← hrest, hseg]; simp [ha]
    · intro hk g hgm
      obtain ⟨l, hl, hg2⟩ := List.mem_flatten.1 hgm
      obtain ⟨x, hx, rfl⟩ := List.mem_map.1 hl
      exact Trace.uptodate h2 hk hnd x (by simp [hseg, hx]) (hok x hx) g hg2
    · refine ⟨pre.flatMap Seg.effects, s.effects, ?_, ?_, ?_, ?_⟩
      · rw [Trace.eff h2, hseg]; simp
      · intro g hgm
        obtain ⟨l, hl, hg2⟩ := List.mem_flatten.1 hgm
        obtain ⟨x, hx, rfl⟩ := List.mem_map.1 hl
        obtain ⟨_, _, hgx⟩ := hgood x (by simp [hseg, hx])
        exact List.mem_flatMap.2 ⟨x, hx, hgx.scripts (hok x hx) g hg2⟩
      · intro y hy
        obtain ⟨x, hx, hy⟩ := List.mem_flatMap.1 hy
        obtain ⟨_, _, hgx⟩ := hgood x (by simp [hseg, hx])
        obtain ⟨g, hg1, hg2⟩ := hgx.effects_files y hy
        exact ⟨g, List.mem_flatten.2 ⟨_, List.mem_map.2 ⟨x, hx, rfl⟩, hg1⟩, hg2⟩
      · by_cases hT : InTx cfg.dialect s.files
        · rcases hg.tx hT with ⟨_, h, _⟩ | ⟨h, _⟩
          · rw [hs] at h; simp at h
          · exact Or.inl h
        · obtain ⟨g, hf, he, _⟩ := hg.notx hT
          have hag : a = [] ∧ g = f := by
            rw [hf] at ha
            cases a with
            | nil => simp at ha; exact ⟨rfl, ha.1⟩
            | cons y ys => simp at ha
          obtain ⟨rfl, rfl⟩ := hag
          rw [hf] at hT
          exact Or.inr ⟨rfl, hT, he⟩
    · intro hl
      have e1 : pre.flatMap (fun s => execs s.events) = (pre.map (·.files)).flatten := by
        have : ∀ x ∈ pre, execs x.events = x.files := by
          intro x hx
          obtain ⟨_, _, hgx⟩ := hgood x (by simp [hseg, hx])
          exact hgx.once_ok hl (hok x hx)
        clear hseg hok
        induction pre with
        | nil => rfl
        | cons y ys ih =>
          simp only [List.flatMap_cons, List.map_cons, List.flatten_cons]
          rw [this y (by simp), ih fun x hx => this x (by simp [hx])]
      rw [h1, execs_flatMap, hseg, List.flatMap_append, e1]
      simp only [List.flatMap_cons, List.flatMap_nil, List.append_nil, hg.execs_eq]
      rcases hg.once hl with h | ⟨at', h, _⟩
      · rw [h] at hb; simp at hb
      · rw [h] at hb
        simp at hb
        rcases hb with hb | ⟨hb, hb2⟩
        · left; rw [h]; simp [hb]
        · right; rw [h]; simp [hb, hb2]
  · rw [herr] at h6; simp at h6

-- the second of three files fails in its own batch
example : (migrate (cfg0 .postgres) (envAt b!"SELECT 1;" 5 .fail)
    [b!"01.tx.sql", b!"02.txoff.sql", b!"03.sql"] (start emptyDB)).1 =
      .error (some b!"02.txoff.sql") .fail false ∧
    (migrate (cfg0 .postgres) (envAt b!"SELECT 1;" 5 .fail)
      [b!"01.tx.sql", b!"02.txoff.sql", b!"03.sql"] (start emptyDB)).2.db.eff =
      [.script b!"01.tx.sql", .part b!"02.txoff.sql"] := by decide +kernel

/-- C05, first half: after a successful run every migration is up to date. -/
theorem migrate_ok_uptodate (cfg : Cfg) (env : Env) (fs : List Str) (db : DB)
    (hcomplete : (migrate cfg env fs (start db)).1 = .ok)
    (hn : fs.Nodup) (hp : ∀ f ∈ fs, PlainName cfg.dialect f) (hk : cfg.skipHistory = false) :
    ∀ f ∈ fs, IsMigration f → UpToDate env (migrate cfg env fs (start db)).2.db.hist f := by
  obtain ⟨segs, h1, h2, h3, h4, h5⟩ := migrate_runs_pending cfg env fs db hn hp
  obtain ⟨k1, k2⟩ := h4 hcomplete
  intro f hf hm
  by_cases hup : f ∈ pending cfg env db.hist fs
  · rw [← k1] at hup
    obtain ⟨l, hl, hg2⟩ := List.mem_flatten.1 hup
    obtain ⟨x, hx, rfl⟩ := List.mem_map.1 hl
    refine Trace.uptodate h2 hk ?_ x hx (k2 x hx) f hg2
    rw [k1]; exact pending_nodup hn
  · have hfr := Trace.frame h2 f (by rw [k1]; exact hup)
    have : UpToDate env db.hist f := by
      rw [mem_pending] at hup
      simp only [hf, hm, hk, true_and, Bool.false_eq_true, false_or] at hup
      exact Classical.not_not.1 hup
    unfold UpToDate at this ⊢
    rw [hfr]; exact this

end Sqddl.Migrate
