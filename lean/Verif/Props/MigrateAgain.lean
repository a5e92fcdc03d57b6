import Verif.Props.Migrate

/-!
# C05 - C11: repeated runs, batches, retries, undo
-/

namespace Sqddl.Migrate
open MigrateSpec FileSpec

/-! ## C05 -/

theorem migrate_ok_select {cfg : Cfg} {env : Env} {fs : List Str} {db : DB}
    (h : (migrate cfg env fs (start db)).1 = .ok) : selectAccepted cfg (sortAndFilter fs) = true := by
  unfold migrate at h
  dsimp only at h
  split at h
  · simp at h
  · simp at h
  · simp at h
  · simp at h
  · split at h
    · assumption
    · simp at h

/-- The same files with the same contents. -/
def SameFiles (env env2 : Env) : Prop := env2.files = env.files ∧ env2.sha = env.sha

theorem SameFiles.uptodate {env env2 : Env} (h : SameFiles env env2) (hist : History) (f : Str) :
    UpToDate env2 hist f ↔ UpToDate env hist f := by
  unfold UpToDate; rw [h.1, h.2]

theorem all_skipped {env : Env} {sel : History} {fs : List Str} (hn : fs.Nodup)
    (h : ∀ f ∈ fs, UpToDate env sel f) :
    queued env (mkMigs sel fs) = [] ∧ opens env (mkMigs sel fs) = false := by
  induction fs with
  | nil => simp [mkMigs, queued, opens]
  | cons g fs ih =>
    simp at hn
    rw [mkMigs_cons, if_neg hn.1, queued, opens]
    rcases decision_spec env sel g with ⟨h1, _⟩ | ⟨_, _, _, h2⟩ | ⟨_, _, _, h2⟩
    · rw [h1]; exact ih hn.2 fun f hf => h f (by simp [hf])
    · exact absurd (h g (by simp)) h2
    · exact absurd (h g (by simp)) h2

/-- A run in which everything is up to date executes nothing and changes nothing; it succeeds if
its first call does. -/
theorem migrate_uptodate_noop (cfg : Cfg) (env : Env) (fs : List Str) (db : DB)
    (hn : fs.Nodup) (hp : ∀ f ∈ fs, PlainName cfg.dialect f) (hk : cfg.skipHistory = false)
    (hall : ∀ f ∈ fs, IsMigration f → UpToDate env db.hist f) :
    (migrate cfg env fs (start db)).2.log = [] ∧ (migrate cfg env fs (start db)).2.db = db ∧
    (env.res 0 = .ok → selectAccepted cfg (sortAndFilter fs) = true →
      (migrate cfg env fs (start db)).1 = .ok) := by
  obtain ⟨segs, h1, h2, h3, _⟩ := migrate_runs_pending cfg env fs db hn hp
  have hpend : pending cfg env db.hist fs = [] := by
    rw [List.eq_nil_iff_forall_not_mem]
    intro f hf
    rw [mem_pending] at hf
    rcases hf.2.2 with h | h
    · simp [hk] at h
    · exact h (hall f hf.1 hf.2.1)
  rw [hpend] at h3
  have hs := Trace.files_nil h2 (List.prefix_nil.1 h3)
  subst hs
  refine ⟨by simpa using h1, ?_, ?_⟩
  · generalize (migrate cfg env fs (start db)).2.db = d at h2
    cases h2; rfl
  · intro h0 hsel
    have hup : ∀ f ∈ sortAndFilter fs, UpToDate env (selectRows cfg (sortAndFilter fs) db.hist) f := by
      intro f hf
      have hm := mem_sortAndFilter.1 hf
      rw [upToDate_sel cfg env _ _ f hf (hp f hm.1)]
      exact ⟨hk, hall f hm.1 hm.2⟩
    obtain ⟨e1, e2⟩ := all_skipped (sortAndFilter_nodup hn) hup
    unfold migrate
    have : env.res (start db).t = .ok := h0
    dsimp only
    rw [this, hsel]
    dsimp only
    rw [if_pos rfl, mainLoop_eq]
    have hdb : (start db).tick.db = db := rfl
    rw [hdb, e1, e2]
    simp [group, runBatches]

/-- C05.  After a successful run, a second run over the same files executes nothing and leaves the
database as it is, in whatever environment; if the database answers, it succeeds. -/
theorem migrate_again_noop (cfg : Cfg) (env env2 : Env) (fs : List Str) (db : DB)
    (hn : fs.Nodup) (hp : ∀ f ∈ fs, PlainName cfg.dialect f) (hk : cfg.skipHistory = false)
    (hok : (migrate cfg env fs (start db)).1 = .ok) (hsame : SameFiles env env2) :
    let db1 := (migrate cfg env fs (start db)).2.db
    let y := migrate cfg env2 fs (start db1)
    y.2.log = [] ∧ y.2.db = db1 ∧ (env2.res 0 = .ok → y.1 = .ok) := by
  dsimp only
  have hup := migrate_ok_uptodate cfg env fs db hok hn hp hk
  obtain ⟨h1, h2, h3⟩ := migrate_uptodate_noop cfg env2 fs _ hn hp hk
    (fun f hf hm => (hsame.uptodate _ f).2 (hup f hf hm))
  exact ⟨h1, h2, fun h => h3 h (migrate_ok_select hok)⟩

example : (migrate (cfg0 .mysql) (env0 b!"A; B;") [b!"01.sql", b!"repeatable/v.sql"] (start emptyDB)).1 = .ok ∧
    execs (migrate (cfg0 .mysql) (env0 b!"A; B;") [b!"01.sql", b!"repeatable/v.sql"]
      (start emptyDB)).2.log = [b!"01.sql", b!"repeatable/v.sql"] ∧
    execs (migrate (cfg0 .mysql) (env0 b!"A; B;") [b!"01.sql", b!"repeatable/v.sql"]
      (start (migrate (cfg0 .mysql) (env0 b!"A; B;") [b!"01.sql", b!"repeatable/v.sql"]
        (start emptyDB)).2.db)).2.log = [] := by decide +kernel

/-- C05 fails for a file listed twice: it is executed twice, and again by the next run. -/
theorem migrate_again_twice_listed_refuted :
    ∃ fs, (migrate (cfg0 .postgres) (env0 b!"A;") fs (start emptyDB)).1 = .ok ∧
      execs (migrate (cfg0 .postgres) (env0 b!"A;") fs
        (start (migrate (cfg0 .postgres) (env0 b!"A;") fs (start emptyDB)).2.db)).2.log ≠ [] :=
  ⟨[b!"01.sql", b!"01.sql"], by decide +kernel⟩

/-- C55: a run that has nothing to do fails if no file is selected, except on SQLite. -/
theorem migrate_nothing_selected_refuted (d : Dialect) (hd : d ≠ .sqlite) (env : Env) (db : DB)
    (h : env.res 0 = .ok) :
    (migrate (cfg0 d) env [] (start db)).1 = .error none .fail false := by
  have h' : env.res (start db).t = .ok := h
  unfold migrate
  dsimp only
  rw [h']
  simp [sortAndFilter, sortAndFilterLoop, selectAccepted, cfg0, hd]

/-! ## C06 -/

/-- C06.  Nothing pending is lost: a file that was pending before a run and is not pending after
it has been executed completely, in whatever way the run ended. -/
theorem migrate_nothing_lost (cfg : Cfg) (env env2 : Env) (fs : List Str) (db : DB)
    (hn : fs.Nodup) (hp : ∀ f ∈ fs, PlainName cfg.dialect f) (hk : cfg.skipHistory = false)
    (hsame : SameFiles env env2) (f : Str) (hf : f ∈ pending cfg env db.hist fs)
    (hf2 : f ∉ pending cfg env2 (migrate cfg env fs (start db)).2.db.hist fs) :
    ∃ es, (migrate cfg env fs (start db)).2.db.eff = db.eff ++ es ∧ .script f ∈ es := by
  obtain ⟨segs, _, h2, _⟩ := migrate_runs_pending cfg env fs db hn hp
  rw [mem_pending] at hf hf2
  refine ⟨_, Trace.eff h2, Trace.new_uptodate h2 f ?_ ?_⟩
  · rcases hf.2.2 with h | h
    · simp [hk] at h
    · exact h
  · rw [← hsame.uptodate]
    apply Classical.byContradiction
    intro h
    exact hf2 ⟨hf.1, hf.2.1, Or.inr h⟩

/-- C06.  What is pending after a run was pending before: nothing that was up to date is
executed by the next run. -/
theorem migrate_pending_shrinks (cfg : Cfg) (env env2 : Env) (fs : List Str) (db : DB)
    (hn : fs.Nodup) (hp : ∀ f ∈ fs, PlainName cfg.dialect f) (hk : cfg.skipHistory = false)
    (hsame : SameFiles env env2) (f : Str)
    (hf : f ∈ pending cfg env2 (migrate cfg env fs (start db)).2.db.hist fs) :
    f ∈ pending cfg env db.hist fs := by
  obtain ⟨segs, _, h2, h3, _⟩ := migrate_runs_pending cfg env fs db hn hp
  apply Classical.byContradiction
  intro hne
  have hfr := Trace.frame h2 f (fun hm => hne (h3.subset hm))
  rw [mem_pending] at hf hne
  rcases hf.2.2 with h | h
  · simp [hk] at h
  · apply hne
    refine ⟨hf.1, hf.2.1, Or.inr ?_⟩
    intro hup
    apply h
    rw [hsame.uptodate]
    unfold UpToDate at hup ⊢
    rw [hfr]; exact hup

/-- One run over transactional files, however it ends: a prefix of the pending files has been
applied, the rest is what is pending now. -/
theorem migrate_progress (cfg : Cfg) (env env2 : Env) (fs : List Str) (db : DB)
    (hn : fs.Nodup) (hp : ∀ f ∈ fs, PlainName cfg.dialect f) (hk : cfg.skipHistory = false)
    (hT : AllTx cfg fs) (hsame : SameFiles env env2) :
    let x := migrate cfg env fs (start db)
    ∃ p rest, pending cfg env db.hist fs = p ++ rest ∧ x.2.db.eff = db.eff ++ p.map .script ∧
      pending cfg env2 x.2.db.hist fs = rest ∧ (x.1 = .ok → rest = []) := by
  dsimp only
  obtain ⟨p, ⟨rest, hrest⟩, h2, h3, h4, h5⟩ := migrate_atomic cfg env fs db hn hp hT
  refine ⟨p, rest, hrest.symm, h2, ?_, ?_⟩
  · refine pending_after hn hk hrest.symm ?_
    intro f hf hm
    rw [hsame.uptodate]
    constructor
    · intro hup
      by_cases hfp : f ∈ p
      · exact Or.inr hfp
      · left
        rcases h4 f hfp with h | ⟨r, h, hr⟩
        · unfold UpToDate at hup ⊢
          rw [← h]; exact hup
        · obtain ⟨r', a, b, _⟩ := hup
          rw [h] at a; simp at a; subst a; simp [hr] at b
    · rintro (hup | hfp)
      · by_cases hfp : f ∈ p
        · exact h3 hk f hfp
        · rcases h4 f hfp with h | ⟨r, h, hr⟩
          · unfold UpToDate at hup ⊢
            rw [h]; exact hup
          · -- not in the pending list, so not touched by the run
            obtain ⟨segs, _, t2, t3, _⟩ := migrate_runs_pending cfg env fs db hn hp
            have hnp : f ∉ pending cfg env db.hist fs := by
              rw [mem_pending]
              rintro ⟨_, _, h | h⟩
              · simp [hk] at h
              · exact h hup
            have := Trace.frame t2 f (fun hm => hnp (t3.subset hm))
            unfold UpToDate at hup ⊢
            rw [this]; exact hup
      · exact h3 hk f hfp
  · intro ho
    have := h5 ho
    rw [← hrest] at this
    simpa using this

/-- C06.  Exactly once: any number of interrupted, failed or crashed runs over transactional
files, followed by a successful run, have together applied each pending file exactly once and in
order. -/
theorem migrate_exactly_once (cfg : Cfg) (fs : List Str) (envs : List Env) (env : Env) (db : DB)
    (hn : fs.Nodup) (hp : ∀ f ∈ fs, PlainName cfg.dialect f) (hk : cfg.skipHistory = false)
    (hT : AllTx cfg fs) (hsame : ∀ e ∈ envs, SameFiles e env) :
    let db1 := (migrateAll (envs.map fun e => (cfg, e, fs)) db).1
    let x := migrate cfg env fs (start db1)
    x.1 = .ok → x.2.db.eff = db.eff ++ (pending cfg env db.hist fs).map .script := by
  dsimp only
  induction envs generalizing db with
  | nil =>
    simp only [List.map_nil, migrateAll]
    intro ho
    obtain ⟨p, rest, h1, h2, h3, h4⟩ := migrate_progress cfg env env fs db hn hp hk hT ⟨rfl, rfl⟩
    rw [h2, h1, h4 ho]; simp
  | cons e envs ih =>
    simp only [List.map_cons, migrateAll]
    intro ho
    have hs := hsame e (by simp)
    obtain ⟨p, rest, h1, h2, h3, _⟩ := migrate_progress cfg e env fs db hn hp hk hT hs
    rw [ih (migrate cfg e fs (start db)).2.db (fun x hx => hsame x (by simp [hx])) ho, h2, h3]
    have : pending cfg env db.hist fs = pending cfg e db.hist fs := by
      have hu : UpToDate env db.hist = UpToDate e db.hist :=
        funext fun f => propext (hs.uptodate _ f)
      unfold pending
      rw [hu]
    rw [this, h1]; simp

-- a crash in the middle of the second transaction, then a clean run
example :
    let fs := [b!"01.tx.sql", b!"02.tx.sql", b!"03.tx.sql"]
    let db1 := (migrate (cfg0 .sqlite) (envAt b!"A; B;" 7 .crash) fs (start emptyDB)).2.db
    let y := migrate (cfg0 .sqlite) (env0 b!"A; B;") fs (start db1)
    db1.eff = [.script b!"01.tx.sql"] ∧ y.1 = .ok ∧
    y.2.db.eff = [.script b!"01.tx.sql", .script b!"02.tx.sql", .script b!"03.tx.sql"] := by
  decide +kernel

/-- C06 fails outside transactions: if the process dies between a script and its history row, the
script is executed again by the next run. -/
theorem migrate_exactly_once_notx_refuted :
    ∃ env env2 fs, SameFiles env env2 ∧
      (migrate (cfg0 .mysql) env2 fs (start (migrate (cfg0 .mysql) env fs (start emptyDB)).2.db)).1 = .ok ∧
      (migrate (cfg0 .mysql) env2 fs (start (migrate (cfg0 .mysql) env fs (start emptyDB)).2.db)).2.db.eff =
        [.script b!"01.sql", .script b!"01.sql"] :=
  ⟨envAt b!"A;" 1 .crashAfter, env0 b!"A;", [b!"01.sql"], ⟨rfl, rfl⟩, by decide +kernel⟩

/-- C06.  A file whose script fails (other than by a lock timeout) is recorded with
success = false, unless recording it fails too. -/
theorem runWithRetry_records_failure (cfg : Cfg) (env : Env) (q : List Mig) (st : St)
    (htx : st.tx = none) (hne : q ≠ []) (hk : cfg.skipHistory = false) (f : Str) (uf : Bool)
    (h : (runWithRetry cfg env q st).1 = .error (some f) .fail uf)
    (hrec : env.res ((runWithRetry cfg env q st).2.t - 1) = .ok) :
    ∃ r, (runWithRetry cfg env q st).2.db.hist f = some r ∧ r.success = false := by
  unfold runWithRetry at h hrec ⊢
  dsimp only at h hrec ⊢
  split at h
  · simp at h
  · rename_i hc
    rw [if_neg hc] at hrec ⊢
    exact (retryLoop_spec cfg env q hne (cfg.maxAttempts - 1).toNat 1
      (st.logEv (.batch (q.map (·.filename)))) htx).failed f uf h hk hrec

example : ((migrate (cfg0 .sqlite) (envAt b!"A; B;" 2 .fail) [b!"01.sql"] (start emptyDB)).2.db.hist
    b!"01.sql").map (·.success) = some false := by decide +kernel

/-- C06: a file that ran into lock timeouts until the attempts were used up gets no history row,
so `ls` does not show it as failed. -/
theorem migrate_records_lock_refuted :
    ∃ env, (migrate { cfg0 .sqlite with maxAttempts := 1 } env [b!"01.sql"] (start emptyDB)).1 =
        .error (some b!"01.sql") .lock false ∧
      (migrate { cfg0 .sqlite with maxAttempts := 1 } env [b!"01.sql"] (start emptyDB)).2.db.hist
        b!"01.sql" = none :=
  ⟨envAt b!"A;" 2 .lock, by decide +kernel⟩

/-! ## C07 -/

theorem migrate_ok_execs (cfg : Cfg) (env : Env) (fs : List Str) (db : DB)
    (hn : fs.Nodup) (hp : ∀ f ∈ fs, PlainName cfg.dialect f)
    (hok : (migrate cfg env fs (start db)).1 = .ok) (f : Str) :
    f ∈ execs (migrate cfg env fs (start db)).2.log ↔ f ∈ pending cfg env db.hist fs := by
  obtain ⟨segs, h1, h2, h3, h4, _⟩ := migrate_runs_pending cfg env fs db hn hp
  obtain ⟨k1, k2⟩ := h4 hok
  rw [h1, execs_flatMap, ← k1]
  simp only [List.mem_flatMap, List.mem_flatten, List.mem_map]
  constructor
  · rintro ⟨s, hs, hf⟩
    obtain ⟨a, b, hg⟩ := Trace.good h2 s hs
    rw [hg.execs_eq] at hf
    obtain ⟨at', ha, hf⟩ := List.mem_flatten.1 hf
    exact ⟨_, ⟨s, hs, rfl⟩, (hg.attempts_prefix at' ha).subset hf⟩
  · rintro ⟨_, ⟨s, hs, rfl⟩, hf⟩
    obtain ⟨a, b, hg⟩ := Trace.good h2 s hs
    refine ⟨s, hs, ?_⟩
    rw [hg.execs_eq]
    exact List.mem_flatten.2 ⟨s.files, List.mem_of_getLast? (hg.complete (k2 s hs)).1, hf⟩

/-- C07.  A repeatable file is executed by a successful run iff it has no successful row, or its
row's checksum is not that of the current contents. -/
theorem migrate_executes_iff (cfg : Cfg) (env : Env) (fs : List Str) (db : DB)
    (hn : fs.Nodup) (hp : ∀ f ∈ fs, PlainName cfg.dialect f) (hk : cfg.skipHistory = false)
    (hok : (migrate cfg env fs (start db)).1 = .ok) (f : Str) (hf : f ∈ fs) (hm : IsMigration f) :
    f ∈ execs (migrate cfg env fs (start db)).2.log ↔ ¬ UpToDate env db.hist f := by
  rw [migrate_ok_execs cfg env fs db hn hp hok, mem_pending]
  simp [hf, hm, hk]

/-- C07.  After a successful run, a second successful run executes a repeatable file iff its lines
have changed, provided the hash function does not collide on the two contents. -/
theorem repeatable_rerun_iff_changed (cfg : Cfg) (env env2 : Env) (fs : List Str) (db : DB)
    (hn : fs.Nodup) (hp : ∀ f ∈ fs, PlainName cfg.dialect f) (hk : cfg.skipHistory = false)
    (f : Str) (hf : f ∈ fs) (hm : IsMigration f) (hr : Repeatable f) (old new : Str)
    (hold : env.files f = some old) (hnew : env2.files f = some new) (hsha : env2.sha = env.sha)
    (hcol : env.sha (crlfToLf old) = env.sha (crlfToLf new) → crlfToLf old = crlfToLf new)
    (hok : (migrate cfg env fs (start db)).1 = .ok)
    (hok2 : (migrate cfg env2 fs (start (migrate cfg env fs (start db)).2.db)).1 = .ok) :
    f ∈ execs (migrate cfg env2 fs (start (migrate cfg env fs (start db)).2.db)).2.log ↔
      lines old ≠ lines new := by
  rw [migrate_executes_iff cfg env2 fs _ hn hp hk hok2 f hf hm]
  obtain ⟨r, h1, h2, h3⟩ := migrate_ok_uptodate cfg env fs db hok hn hp hk f hf hm
  obtain ⟨c, h4, h5⟩ := h3 hr
  rw [hold] at h4; simp at h4; subst h4
  rw [ne_eq, ← crlfToLf_eq_iff]
  apply not_congr
  constructor
  · rintro ⟨r', k1, _, k2⟩
    rw [h1] at k1; simp at k1; subst k1
    obtain ⟨c, k3, k4⟩ := k2 hr
    rw [hnew] at k3; simp at k3; subst k3
    rw [h5, hsha] at k4
    exact hcol k4
  · intro e
    exact ⟨r, h1, h2, fun _ => ⟨new, hnew, by rw [h5, hsha, e]⟩⟩

example :
    let fs := [b!"repeatable/v.sql"]
    let db1 := (migrate (cfg0 .sqlite) (env0 b!"A;\r\nB;") fs (start emptyDB)).2.db
    execs (migrate (cfg0 .sqlite) (env0 b!"A;\nB;") fs (start db1)).2.log = [] ∧
    execs (migrate (cfg0 .sqlite) (env0 b!"A;\n\nB;") fs (start db1)).2.log = fs := by
  decide +kernel

/-! ## C08 -/

/-- The batches of a log. -/
def batches : List Ev → List (List Str)
  | [] => []
  | .batch fs :: l => fs :: batches l
  | _ :: l => batches l

theorem batches_append (a b : List Ev) : batches (a ++ b) = batches a ++ batches b := by
  induction a with
  | nil => rfl
  | cons e a ih => cases e <;> simp [batches, ih]

theorem batches_execs (l : List Str) : batches (l.map .exec) = [] := by
  induction l with
  | nil => rfl
  | cons f l ih => simp [batches, ih]

theorem batches_events {cfg env s db db'} (h : GoodSeg cfg env s db db') : batches s.events = [s.files] := by
  have : batches s.undo = [] := by
    rcases h.undo_only with h | ⟨_, f, _, h, _⟩ <;> simp [h, batches]
  simp only [Seg.events, batches, batches_append, batches_execs, this, List.append_nil]

theorem batches_flatMap {cfg env db segs db'} (h : Trace cfg env db segs db') :
    batches (segs.flatMap Seg.events) = segs.map (·.files) := by
  induction h with
  | nil => rfl
  | cons h _ _ ih => simp [batches_append, batches_events h, ih]

/-- C08.  The batches in order contain the first of the pending files, all of them if the run
succeeds; no batch is empty; a batch of several files contains no `.tx.sql` and no `.txoff.sql`
file and does not occur on MySQL; and two consecutive batches are separated for one of these
reasons only. -/
theorem migrate_batches (cfg : Cfg) (env : Env) (fs : List Str) (db : DB)
    (hn : fs.Nodup) (hp : ∀ f ∈ fs, PlainName cfg.dialect f) :
    let x := migrate cfg env fs (start db)
    (batches x.2.log).flatten <+: pending cfg env db.hist fs ∧
    (x.1 = .ok → (batches x.2.log).flatten = pending cfg env db.hist fs) ∧
    (∀ b ∈ batches x.2.log, b ≠ [] ∧ (b.length > 1 → cfg.dialect ≠ .mysql ∧
      ∀ f ∈ b, ¬ EndsWith f b!".tx.sql" ∧ ¬ EndsWith f b!".txoff.sql")) ∧
    (∀ l r b1 b2, batches x.2.log = l ++ b1 :: b2 :: r → cfg.dialect = .mysql ∨
      ∃ f, (b1.head? = some f ∨ b2.head? = some f) ∧
        (EndsWith f b!".tx.sql" ∨ EndsWith f b!".txoff.sql")) := by
  dsimp only
  obtain ⟨segs, h1, h2, ⟨q, h3, hgr, h4, h5⟩, _⟩ := migrate_trace cfg env fs db
  have ht := queued_todo env (selectRows cfg (sortAndFilter fs) db.hist) (sortAndFilter fs)
    (sortAndFilter_nodup hn)
  rw [todo_pending cfg env db.hist fs hp, ← h4] at ht
  rw [h1, batches_flatMap h2]
  refine ⟨h3.trans ht.1, ?_, ?_, ?_⟩
  · intro ho
    obtain ⟨k1, k2, k3⟩ := h5 ho
    exact k1.trans (ht.2 k2)
  · intro b hb
    obtain ⟨s, hs, rfl⟩ := List.mem_map.1 hb
    obtain ⟨_, _, hg⟩ := Trace.good h2 s hs
    exact ⟨hg.nonempty, hg.shape⟩
  · intro l r b1 b2 he
    rw [he] at hgr
    obtain ⟨t, ht'⟩ := hgr
    rw [List.append_assoc, List.cons_append, List.cons_append] at ht'
    obtain ⟨a, b, e1, e2, e3⟩ := List.map_eq_append_iff.1 ht'.symm
    obtain ⟨x, b', e4, e5, e6⟩ := List.map_eq_cons_iff.1 e3
    obtain ⟨y, b'', e7, e8, e9⟩ := List.map_eq_cons_iff.1 e6
    subst e4 e7
    obtain ⟨m, m', rr, rr', c1, c2, c3⟩ := group_boundary _ _ _ _ _ _ _ e1
    subst c1 c2
    simp only [isTxFile, isTxoffFile, hasSuffix_iff] at c3
    subst e5 e8
    rcases c3 with c | c | c | c | c
    · exact Or.inl c
    · exact Or.inr ⟨m.filename, Or.inl rfl, Or.inl c⟩
    · exact Or.inr ⟨m.filename, Or.inl rfl, Or.inr c⟩
    · exact Or.inr ⟨m'.filename, Or.inr rfl, Or.inl c⟩
    · exact Or.inr ⟨m'.filename, Or.inr rfl, Or.inr c⟩

example : batches (migrate (cfg0 .postgres) (env0 b!"A;")
    [b!"1.sql", b!"2.sql", b!"3.txoff.sql", b!"4.sql", b!"5.tx.sql", b!"6.sql", b!"7.sql"]
    (start emptyDB)).2.log =
    [[b!"1.sql", b!"2.sql"], [b!"3.txoff.sql"], [b!"4.sql"], [b!"5.tx.sql"], [b!"6.sql", b!"7.sql"]] := by
  decide +kernel

/-! ## C09 -/

/-- C09.  In every run each batch is attempted at most `MaxAttempts` times (at least once), more
than once only if it may be retried and a lock timeout occurred. -/
theorem migrate_attempts_bounded (cfg : Cfg) (env : Env) (fs : List Str) (db : DB) :
    ∃ segs : List Seg, (migrate cfg env fs (start db)).2.log = segs.flatMap Seg.events ∧
      ∀ s ∈ segs, s.attempts.length ≤ max 1 cfg.maxAttempts.toNat ∧
        (s.attempts.length > 1 → Retryable cfg env s.files ∧ ∃ t, env.res t = .lock) := by
  obtain ⟨segs, h1, h2, _⟩ := migrate_trace cfg env fs db
  refine ⟨segs, h1, ?_⟩
  intro s hs
  obtain ⟨_, _, hg⟩ := Trace.good h2 s hs
  refine ⟨hg.attempts_bound, fun hgt => ⟨?_, ?_⟩⟩
  · apply Classical.byContradiction
    intro h
    have := hg.attempts_retry h; omega
  · apply Classical.byContradiction
    intro h
    have := hg.attempts_lock (fun t ht => h ⟨t, ht⟩); omega

/-- C09.  Unless the attempt just made ended in a lock timeout and the batch may be retried, the
number of attempts left makes no difference: there is no further attempt. -/
theorem retryLoop_no_retry (cfg : Cfg) (env : Env) (q : List Mig) (hq : q ≠ []) (left attempts : Nat)
    (st : St) (h : (¬ ∃ ms, (run cfg env q st).1 = .stopped ms .lock) ∨ ¬ Retryable cfg env (names q)) :
    retryLoop cfg env q left attempts st = retryLoop cfg env q 0 attempts st := by
  rw [retryLoop.eq_def, retryLoop.eq_def cfg env q 0]
  cases hx : run cfg env q st with | mk r s =>
  rw [hx] at h
  simp only [hx]
  cases r <;> dsimp only
  case stopped ms e =>
    split
    · rename_i hc
      rcases h with h | h
      · exact absurd ⟨ms, by rw [hc.1]⟩ h
      · exact absurd ((retryable_iff cfg env q hq).1 hc.2) h
    · rfl

/-- An attempt ends in a lock timeout only if its last database call was one. -/
theorem run_lock_last (cfg : Cfg) (env : Env) (q : List Mig) (st : St) (ms : List Mig)
    (h : (run cfg env q st).1 = .stopped ms .lock) :
    env.res ((run cfg env q st).2.t - 1) = .lock := by
  have loop : ∀ (acc l : List Mig) (st : St), (runLoop cfg env acc l st).1 = .stopped ms .lock →
      env.res ((runLoop cfg env acc l st).2.t - 1) = .lock := by
    intro acc l
    induction l generalizing acc with
    | nil => intro st h; simp [runLoop] at h
    | cons m l ih =>
      intro st h
      have at_t : ∀ (s : St) (g : DB → DB), (s.apply g).t = s.t := by
        intro s g; unfold St.apply; split <;> rfl
      rw [runLoop] at h ⊢
      cases hfile : env.files m.filename with
      | none => rw [hfile] at h; simp at h
      | some c =>
        simp only [hfile] at h ⊢
        cases hr : env.res (st.logEv (.exec m.filename)).t <;> rw [hr] at h <;> dsimp only at h ⊢
        case ok =>
          split at h
          · rename_i hk; rw [if_pos hk]; exact ih _ _ h
          · rename_i hk; rw [if_neg hk]
            generalize hs : (St.apply (St.tick (st.logEv (.exec m.filename)))
              fun x => DB.addEff (.script m.filename) x) = s at h ⊢
            cases hr2 : env.res s.t <;> rw [hr2] at h <;> dsimp only at h ⊢
            case ok => exact ih _ _ h
            case lock => simpa [St.rollback, St.tick] using hr2
            all_goals simp at h
        case lock => simpa [St.rollback, at_t, St.tick] using hr
        all_goals simp at h
  unfold run at h ⊢
  split at h
  · rename_i hT
    rw [if_pos hT]
    dsimp only at h ⊢
    cases hr : env.res st.t <;> rw [hr] at h <;> dsimp only at h ⊢
    case ok =>
      have hl := loop [] q { st.tick with tx := some st.tick.db }
      generalize runLoop cfg env [] q { st.tick with tx := some st.tick.db } = x at h hl ⊢
      obtain ⟨r, s⟩ := x
      cases r <;> dsimp only at h ⊢
      case done ms' =>
        cases hr2 : env.res s.t <;> rw [hr2] at h <;> dsimp only at h ⊢
        case lock => simpa [St.rollback, St.tick] using hr2
        all_goals simp at h
      all_goals exact hl h
    all_goals simp at h
  · rename_i hT
    rw [if_neg hT]
    exact loop [] q st h

-- two lock timeouts, then success: three attempts
example : (migrate (cfg0 .sqlite) { env0 b!"A; B;" with res := fun t => if t = 2 ∨ t = 4 then .lock else .ok }
    [b!"01.sql"] (start emptyDB)).1 = .ok ∧
  (migrate (cfg0 .sqlite) { env0 b!"A; B;" with res := fun t => if t = 2 ∨ t = 4 then .lock else .ok }
    [b!"01.sql"] (start emptyDB)).2.log =
    [.batch [b!"01.sql"], .exec b!"01.sql", .exec b!"01.sql", .exec b!"01.sql"] := by decide +kernel

/-! ## C10 -/

/-- C10.  The delay is between `BaseDelay` and `MaxDelay`. -/
theorem retryDelay_bounds (base max : Int) (attempts r : Nat) (h : base ≤ max) (d : Int)
    (hd : retryDelay base max attempts r = some d) : base ≤ d ∧ d ≤ max := by
  unfold retryDelay at hd
  dsimp only at hd
  split at hd
  · split at hd
    · simp at hd
    · repeat' split at hd
      all_goals (have hd := Option.some.inj hd; omega)
  · split at hd
    · simp at hd
    · repeat' split at hd
      all_goals (have hd := Option.some.inj hd; omega)

theorem wrap64_id {x : Int} (h1 : -2 ^ 63 ≤ x) (h2 : x < 2 ^ 63) : wrap64 x = x := by
  unfold wrap64
  omega

/-- C10.  Computing the delay does not crash as long as `BaseDelay` doubled that often is at least
a second and fits into 64 bits.  Partial: for other settings it crashes, see below. -/
theorem retryDelay_defined_partial (base max : Int) (attempts r : Nat) (ha : attempts < 63)
    (h1 : second ≤ base * 2 ^ attempts) (h2 : base * 2 ^ attempts < 2 ^ 63) :
    ∃ d, retryDelay base max attempts r = some d := by
  unfold retryDelay
  dsimp only
  rw [if_pos ha, wrap64_id (by have : (0:Int) < second := by decide
                               omega) h2]
  have : 0 < Int.tdiv (base * 2 ^ attempts) second := by
    have h0 : (0:Int) < second := by decide
    rw [Int.tdiv_eq_ediv_of_nonneg (by omega)]
    have := Int.ediv_le_ediv h0 h1
    rw [Int.ediv_self (by omega)] at this
    omega
  rw [if_neg (by omega)]
  repeat' split
  all_goals exact ⟨_, rfl⟩

/-- C10 fails for a `BaseDelay` below half a second. -/
theorem retryDelay_short_refuted (max : Int) (r : Nat) :
    retryDelay (second / 10) max 1 r = none := by
  simp [retryDelay, second, wrap64]

/-- C10 fails from attempt 34 on with the default `BaseDelay`: the multiplication overflows. -/
theorem retryDelay_overflow_refuted (max : Int) (r : Nat) :
    retryDelay second max 34 r = none := by
  simp [retryDelay, second, wrap64]

/-- The crash reaches the user: one lock timeout with a `BaseDelay` of 100ms. -/
theorem migrate_delay_panic_refuted :
    ∃ env, (migrate { cfg0 .sqlite with baseDelay := second / 10 } env [b!"01.sql"] (start emptyDB)).1
      = .panic := ⟨envAt b!"A;" 2 .lock, by decide +kernel⟩

/-- C10 (crash): a lock timeout when the transaction is opened indexes the batch at -1. -/
theorem migrate_begin_lock_panic_refuted :
    ∃ env, (migrate (cfg0 .sqlite) env [b!"01.sql"] (start emptyDB)).1 = .panic :=
  ⟨envAt b!"A;" 1 .lock, by decide +kernel⟩

example : retryDelay second (300 * second) 9 12345 = some (57 * second) := by decide +kernel

/-! ## C11 -/

/-- C11.  An undo script is executed only for a file that is alone in its batch, not transactional
and not a single statement, and only in a run that does not succeed; then it is the last thing
executed. -/
theorem migrate_undo_only (cfg : Cfg) (env : Env) (fs : List Str) (db : DB) (f : Str)
    (h : .undo f ∈ (migrate cfg env fs (start db)).2.log) :
    ¬ Retryable cfg env [f] ∧ (env.files (undoFile f)).isSome ∧
    (migrate cfg env fs (start db)).1 ≠ .ok ∧
    ∃ l, (migrate cfg env fs (start db)).2.log = l ++ [.undo f] := by
  obtain ⟨segs, h1, h2, ⟨_, _, _, _, h5⟩, h6⟩ := migrate_trace cfg env fs db
  rw [h1] at h
  obtain ⟨s, hs, hm⟩ := List.mem_flatMap.1 h
  obtain ⟨_, _, hg⟩ := Trace.good h2 s hs
  have hu : .undo f ∈ s.undo := by
    simp only [Seg.events, List.mem_cons, List.mem_append, List.mem_map] at hm
    simpa using hm
  have hno : s.outcome ≠ .ok := by
    intro ho
    rw [(hg.complete ho).2] at hu; simp at hu
  rcases hg.undo_only with h | ⟨k1, g, k2, k3, k4⟩
  · simp [h] at hu
  · rw [k3] at hu; simp at hu; subst hu
    rw [k2] at k1
    refine ⟨k1, k4, fun ho => hno ((h5 ho).2.2 s hs), ?_⟩
    have hlast : ∃ pre, segs = pre ++ [s] := by
      have hne : segs ≠ [] := List.ne_nil_of_mem hs
      have e := List.dropLast_concat_getLast hne
      have : s ∉ segs.dropLast := fun hd => hno (Trace.dropLast_ok h2 s hd)
      rw [← e] at hs
      simp at hs
      rcases hs with hs | hs
      · exact absurd hs this
      · exact ⟨segs.dropLast, by rw [hs]; exact e.symm⟩
    obtain ⟨pre, hpre⟩ := hlast
    refine ⟨pre.flatMap Seg.events ++ .batch s.files :: s.attempts.flatten.map .exec, ?_⟩
    rw [h1, hpre]
    simp [Seg.events, k3]

/-- C11.  If a file failed that is neither transactional nor a single statement, its undo script
is executed if there is one; the error reported is that of the file. -/
theorem migrate_undo_always (cfg : Cfg) (env : Env) (fs : List Str) (db : DB) (f : Str) (e : Err)
    (uf : Bool) (h : (migrate cfg env fs (start db)).1 = .error (some f) e uf)
    (hr : ¬ Retryable cfg env [f]) (hu : (env.files (undoFile f)).isSome) :
    .undo f ∈ (migrate cfg env fs (start db)).2.log := by
  obtain ⟨segs, h1, h2, _, h6⟩ := migrate_trace cfg env fs db
  rcases h6 (by simp [h]) with ⟨pre, s, hseg, hs⟩ | ⟨_, hx⟩
  · obtain ⟨_, _, hg⟩ := Trace.good h2 s (by simp [hseg])
    rw [h] at hs
    obtain ⟨a, b, ha, _⟩ := hg.failing f e uf hs
    have hnr : ¬ Retryable cfg env s.files := by
      intro hR
      rcases hR with hT | ⟨g, c, hg1, hg2⟩
      · rcases hT with hlen | ⟨g, hg1, hg2⟩
        · exfalso
          obtain ⟨e1, e2⟩ := hg.shape hlen
          exact hr (Or.inl (Or.inr ⟨f, rfl, Or.inl ⟨(e2 f (by rw [ha]; simp)).2, e1⟩⟩))
        · rw [hg1] at ha
          have : g = f := by
            cases a with
            | nil => simp at ha; exact ha.1
            | cons y ys => simp at ha
          subst this
          exact hr (Or.inl (Or.inr ⟨g, rfl, hg2⟩))
      · rw [hg1] at ha
        have : g = f := by
          cases a with
          | nil => simp at ha; exact ha.1
          | cons y ys => simp at ha
        subst this
        exact hr (Or.inr ⟨g, c, rfl, hg2⟩)
    obtain ⟨g, k1, k2⟩ := hg.undo_always hnr ⟨f, e, uf, hs⟩
    have : g = f := by
      rw [k1] at ha
      cases a with
      | nil => simp at ha; exact ha.1
      | cons y ys => simp at ha
    subst this
    rw [h1, hseg]
    simp only [List.flatMap_append, List.mem_append]
    right
    simp [Seg.events, k2 hu]
  · rw [h] at hx; simp at hx

end Sqddl.Migrate
