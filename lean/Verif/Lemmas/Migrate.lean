import Verif.Model.Migrate

namespace Sqddl.Migrate

def names (q : List Mig) : List Str := q.map (·.filename)

@[simp] theorem names_nil : names [] = [] := rfl
@[simp] theorem names_cons (m : Mig) (q : List Mig) : names (m :: q) = m.filename :: names q := rfl
@[simp] theorem names_append (a b : List Mig) : names (a ++ b) = names a ++ names b := by
  simp [names]

/-- The rows written for a batch: every migration has a success row, nothing else changes. -/
structure Recorded (ms : List Mig) (h h' : History) : Prop where
  frame : ∀ g, g ∉ names ms → h' g = h g
  rows : ∀ m ∈ ms, ∃ r, h' m.filename = some r ∧ r.success = true
  checksum : (names ms).Nodup → ∀ m ∈ ms, ∃ t, h' m.filename = some ⟨m.checksum, some t, true⟩

theorem Recorded.nil (h : History) : Recorded [] h h := ⟨by simp, by simp, by simp⟩

theorem Recorded.cons {m : Mig} {ms : List Mig} {h h' : History} {t : Nat}
    (hr : Recorded ms (h.upsert m.filename ⟨m.checksum, some t, true⟩) h') :
    Recorded (m :: ms) h h' := by
  refine ⟨?_, ?_, ?_⟩
  · intro g hg
    simp at hg
    rw [hr.frame g hg.2]
    simp [History.upsert, hg.1]
  · intro x hx
    rcases List.mem_cons.1 hx with rfl | hx
    · by_cases hm : x.filename ∈ names ms
      · obtain ⟨y, hy, e⟩ := List.mem_map.1 hm
        rw [← e]; exact hr.rows y hy
      · exact ⟨_, by rw [hr.frame _ hm]; simp [History.upsert]; rfl, rfl⟩
    · exact hr.rows x hx
  · intro hn x hx
    simp at hn
    rcases List.mem_cons.1 hx with rfl | hx
    · exact ⟨t, by rw [hr.frame _ hn.1]; simp [History.upsert]⟩
    · exact hr.checksum hn.2 x hx

/-- What the loop of `run` does inside a transaction with private state `d`. -/
def TxLoop (cfg : Cfg) (env : Env) (acc ms : List Mig) (st : St) (d : DB) (x : RunRes × St) : Prop :=
  x.2.db = st.db ∧
  match x.1 with
  | .done acc' =>
    names acc' = names acc ++ names ms ∧
    x.2.log = st.log ++ (names ms).map .exec ∧
    (∃ h', x.2.tx = some ⟨d.eff ++ (names ms).map .script, h'⟩ ∧
      (cfg.skipHistory = true → h' = d.hist) ∧
      (cfg.skipHistory = false → Recorded ms d.hist h')) ∧
    (∀ m ∈ ms, (env.files m.filename).isSome)
  | .stopped acc' e =>
    x.2.tx = none ∧
    (∃ a f b, names ms = a ++ f :: b ∧ names acc' = names acc ++ a ++ [f] ∧
      (x.2.log = st.log ++ (a ++ [f]).map .exec ∨
        (x.2.log = st.log ++ a.map .exec ∧ env.files f = none ∧ e = .fail)))
  | .crashed =>
    x.2.tx = none ∧ ∃ a, a <+: names ms ∧ x.2.log = st.log ++ a.map .exec
  | .beginFailed _ => False

theorem TxLoop.stop1 {cfg env acc ms st d m m'} {e : Err} {s : St} (hm : m'.filename = m.filename)
    (h1 : s.db = st.db) (h2 : s.tx = none) (h3 : s.log = st.log ++ [.exec m.filename]) :
    TxLoop cfg env acc (m :: ms) st d (.stopped (acc ++ [m']) e, s) :=
  ⟨h1, h2, [], m.filename, names ms, by simp, by simp [hm], Or.inl (by simp [h3])⟩

theorem TxLoop.crash1 {cfg env acc ms st d m} {s : St}
    (h1 : s.db = st.db) (h2 : s.tx = none) (h3 : s.log = st.log ++ [.exec m.filename]) :
    TxLoop cfg env acc (m :: ms) st d (.crashed, s) :=
  ⟨h1, h2, [m.filename], by simp, by simp [h3]⟩

theorem TxLoop.cons {cfg env acc ms st d m m' st1 d1 c x} (hfile : env.files m.filename = some c)
    (hm' : m'.filename = m.filename)
    (hdb : st1.db = st.db) (hlog : st1.log = st.log ++ [.exec m.filename])
    (heff : d1.eff = d.eff ++ [.script m.filename])
    (hskip : cfg.skipHistory = true → d1.hist = d.hist)
    (hrow : cfg.skipHistory = false →
      ∃ t, d1.hist = d.hist.upsert m.filename ⟨m.checksum, some t, true⟩)
    (h : TxLoop cfg env (acc ++ [m']) ms st1 d1 x) :
    TxLoop cfg env acc (m :: ms) st d x := by
  rcases x with ⟨r, st2⟩
  obtain ⟨h1, h2⟩ := h
  refine ⟨h1.trans hdb, ?_⟩
  cases r <;> dsimp only at h2 ⊢
  case done acc' =>
    obtain ⟨a1, a2, ⟨h', a3, a4, a5⟩, a6⟩ := h2
    refine ⟨by simp [a1, hm'], by simp [a2, hlog], ⟨h', by simp [a3, heff], ?_, ?_⟩, ?_⟩
    · intro hs; rw [a4 hs, hskip hs]
    · intro hs
      obtain ⟨t, ht⟩ := hrow hs
      exact Recorded.cons (ht ▸ a5 hs)
    · intro x hx
      rcases List.mem_cons.1 hx with rfl | hx
      · simp [hfile]
      · exact a6 x hx
  case stopped acc' e =>
    obtain ⟨a1, a, f, b, a2, a3, a4⟩ := h2
    refine ⟨a1, m.filename :: a, f, b, by simp [a2], by simp [a3, hm'], ?_⟩
    rcases a4 with a4 | ⟨a4, a5, a6⟩
    · exact Or.inl (by simp [a4, hlog])
    · exact Or.inr ⟨by simp [a4, hlog], a5, a6⟩
  case crashed =>
    obtain ⟨a1, a, a2, a3⟩ := h2
    exact ⟨a1, m.filename :: a, by simpa using a2, by simp [a3, hlog]⟩

theorem runLoop_tx (cfg : Cfg) (env : Env) (acc ms : List Mig) (st : St) (d : DB)
    (htx : st.tx = some d) : TxLoop cfg env acc ms st d (runLoop cfg env acc ms st) := by
  induction ms generalizing acc st d with
  | nil =>
    refine ⟨rfl, by simp, by simp [runLoop], ⟨d.hist, by simp [runLoop, htx], fun _ => rfl,
      fun _ => Recorded.nil _⟩, by simp⟩
  | cons m ms ih =>
    rw [runLoop]
    cases hfile : env.files m.filename with
    | none =>
      exact ⟨rfl, rfl, [], m.filename, names ms, rfl, by simp, Or.inr ⟨by simp [St.rollback], hfile, rfl⟩⟩
    | some c =>
      simp only
      cases hres : env.res (st.logEv (.exec m.filename)).t with
      | fail => refine TxLoop.stop1 ?_ ?_ ?_ ?_ <;> simp [St.tick, St.logEv, St.apply, htx, St.rollback]
      | lock => refine TxLoop.stop1 ?_ ?_ ?_ ?_ <;> simp [St.tick, St.logEv, St.apply, htx, St.rollback]
      | crash => refine TxLoop.crash1 ?_ ?_ ?_ <;> simp [St.tick, St.logEv, St.apply, htx, St.rollback]
      | crashAfter => refine TxLoop.crash1 ?_ ?_ ?_ <;> simp [St.tick, St.logEv, St.apply, htx, St.rollback]
      | ok =>
        simp only
        split
        · rename_i hskip
          refine TxLoop.cons hfile ?_ ?_ ?_ ?_ ?_ ?_ (ih _ _ (d.addEff (.script m.filename)) ?_)
          all_goals simp [St.apply, St.tick, St.logEv, htx, DB.addEff, hskip]
        · rename_i hskip
          split
          · refine TxLoop.stop1 ?_ ?_ ?_ ?_ <;> simp [St.tick, St.logEv, St.apply, htx, St.rollback]
          · refine TxLoop.stop1 ?_ ?_ ?_ ?_ <;> simp [St.tick, St.logEv, St.apply, htx, St.rollback]
          · refine TxLoop.crash1 ?_ ?_ ?_ <;> simp [St.tick, St.logEv, St.apply, htx, St.rollback]
          · refine TxLoop.crash1 ?_ ?_ ?_ <;> simp [St.tick, St.logEv, St.apply, htx, St.rollback]
          · refine TxLoop.cons hfile ?_ ?_ ?_ ?_ ?_ ?_ (ih _ _ ((d.addEff (.script m.filename)).upsert
              m.filename ⟨m.checksum, some (env.now st.t), true⟩) ?_)
            all_goals simp [St.apply, St.tick, St.logEv, htx, DB.addEff, DB.upsert, hskip]
            exact ⟨_, rfl⟩

/-- All scripts of the batch and all their history rows have taken effect, nothing else. -/
structure Committed (cfg : Cfg) (q : List Mig) (db db' : DB) : Prop where
  eff : db'.eff = db.eff ++ (names q).map .script
  skip : cfg.skipHistory = true → db'.hist = db.hist
  rows : cfg.skipHistory = false → Recorded q db.hist db'.hist

/-- What one attempt does, starting outside a transaction. -/
structure RunSpec (cfg : Cfg) (env : Env) (q : List Mig) (st : St) (x : RunRes × St) : Prop where
  tx : x.2.tx = none
  res : match x.1 with
    | .done ms => names ms = names q ∧ x.2.log = st.log ++ (names q).map .exec ∧
        Committed cfg q st.db x.2.db
    | .stopped ms e =>
        x.2.db.hist = st.db.hist ∧
        (∃ a f b, names q = a ++ f :: b ∧ names ms = a ++ [f] ∧
          (x.2.log = st.log ++ (a ++ [f]).map .exec ∨
            (x.2.log = st.log ++ a.map .exec ∧ env.files f = none ∧ e = .fail))) ∧
        (isTx cfg.dialect q = true → x.2.db.eff = st.db.eff) ∧
        (isTx cfg.dialect q = false → ∃ f, names q = [f] ∧
          ∃ es, x.2.db.eff = st.db.eff ++ es ∧ (es = [] ∨ es = [.part f] ∨ es = [.script f]))
    | .beginFailed _ => isTx cfg.dialect q = true ∧ x.2.db = st.db ∧ x.2.log = st.log
    | .crashed =>
        (∃ a, a <+: names q ∧ x.2.log = st.log ++ a.map .exec) ∧
        (isTx cfg.dialect q = true → x.2.db = st.db ∨ Committed cfg q st.db x.2.db) ∧
        (isTx cfg.dialect q = false → ∃ f, names q = [f] ∧
          ∃ es, x.2.db.eff = st.db.eff ++ es ∧ ((es = [.part f] ∨ es = [.script f]) ∧
            (x.2.db.hist = st.db.hist ∨
              (es = [.script f] ∧ cfg.skipHistory = false ∧ Recorded q st.db.hist x.2.db.hist))))

theorem isTx_false {d : Dialect} {q : List Mig} (hq : q ≠ []) (h : isTx d q = false) :
    ∃ m, q = [m] := by
  match q, hq, h with
  | [m], _, _ => exact ⟨m, rfl⟩
  | _ :: _ :: _, _, h => simp [isTx] at h

theorem run_spec (cfg : Cfg) (env : Env) (q : List Mig) (st : St) (hq : q ≠ []) (htx : st.tx = none) :
    RunSpec cfg env q st (run cfg env q st) := by
  unfold run
  by_cases hT : isTx cfg.dialect q = true
  · rw [if_pos hT]
    cases hres : env.res st.t with
    | fail => exact ⟨by simp [St.tick, htx], hT, rfl, rfl⟩
    | lock => exact ⟨by simp [St.tick, htx], hT, rfl, rfl⟩
    | crash =>
      exact ⟨by simp [St.tick, htx], ⟨[], by simp, by simp [St.tick]⟩, fun _ => Or.inl rfl, by simp [hT]⟩
    | crashAfter =>
      exact ⟨by simp [St.tick, htx], ⟨[], by simp, by simp [St.tick]⟩, fun _ => Or.inl rfl, by simp [hT]⟩
    | ok =>
      simp only
      have h := runLoop_tx cfg env [] q { st.tick with tx := some st.tick.db } st.db rfl
      revert h
      rcases runLoop cfg env [] q { st.tick with tx := some st.tick.db } with ⟨r, s⟩
      rintro ⟨h1, h2⟩
      cases r <;> dsimp only at h1 h2 ⊢
      case done ms =>
        obtain ⟨a1, a2, ⟨h', a3, a4, a5⟩, a6⟩ := h2
        simp at a1
        have hc : Committed cfg q st.db ⟨st.db.eff ++ (names q).map .script, h'⟩ := ⟨rfl, a4, a5⟩
        have hl : s.log = st.log ++ (names q).map .exec := by simpa [St.tick] using a2
        have hstop : ∀ e, RunSpec cfg env q st (.stopped ms e, s.tick.rollback) := by
          intro e
          refine ⟨rfl, by simp [St.tick, St.rollback, h1], ?_,
            fun _ => by simp [St.tick, St.rollback, h1], by simp [hT]⟩
          have hne : names q ≠ [] := by simpa [names] using hq
          have hs := List.dropLast_concat_getLast hne
          refine ⟨(names q).dropLast, (names q).getLast hne, [], hs.symm, by rw [hs, a1], Or.inl ?_⟩
          rw [hs]
          simpa [St.tick, St.rollback] using hl
        cases env.res s.t with
        | ok =>
          refine ⟨by simp [St.commit, St.tick, a3], a1, ?_, ?_⟩
          · simpa [St.commit, St.tick, a3] using hl
          · simpa [St.commit, St.tick, a3] using hc
        | fail => exact hstop _
        | lock => exact hstop _
        | crash =>
          exact ⟨rfl, ⟨names q, List.prefix_refl _, hl⟩, fun _ => Or.inl h1, by simp [hT]⟩
        | crashAfter =>
          refine ⟨by simp [St.commit, St.tick, a3], ⟨names q, List.prefix_refl _, ?_⟩,
            fun _ => Or.inr ?_, by simp [hT]⟩
          · simpa [St.commit, St.tick, a3] using hl
          · simpa [St.commit, St.tick, a3] using hc
      case stopped ms e =>
        obtain ⟨a1, a, f, b, a2, a3, a4⟩ := h2
        refine ⟨a1, by simp [h1, St.tick], ⟨a, f, b, a2, by simpa using a3, ?_⟩,
          fun _ => by simp [h1, St.tick], by simp [hT]⟩
        simpa [St.tick] using a4
      case crashed =>
        obtain ⟨a1, a, a2, a3⟩ := h2
        exact ⟨a1, ⟨a, a2, by simpa [St.tick] using a3⟩, fun _ => Or.inl h1, by simp [hT]⟩
  · rw [if_neg hT]
    have hF : isTx cfg.dialect q = false := by simpa using hT
    obtain ⟨m, rfl⟩ := isTx_false hq hF
    rw [runLoop]
    have rec1 : ∀ t, Recorded [m] st.db.hist (st.db.hist.upsert m.filename ⟨m.checksum, some t, true⟩) :=
      fun t => Recorded.cons (Recorded.nil _)
    cases hfile : env.files m.filename with
    | none =>
      refine ⟨rfl, rfl, ⟨[], m.filename, [], rfl, rfl, Or.inr ⟨by simp [St.rollback], hfile, rfl⟩⟩,
        by simp [hF], fun _ => ⟨m.filename, rfl, [], by simp [St.rollback], Or.inl rfl⟩⟩
    | some c =>
      simp only
      cases hres : env.res (st.logEv (.exec m.filename)).t with
      | fail =>
        refine ⟨rfl, ?_, ⟨[], m.filename, [], rfl, rfl, Or.inl ?_⟩, by simp [hF],
          fun _ => ⟨m.filename, rfl, [.part m.filename], ?_, by simp⟩⟩ <;>
        simp [St.rollback, St.apply, St.tick, St.logEv, htx, DB.addEff]
      | lock =>
        refine ⟨rfl, ?_, ⟨[], m.filename, [], rfl, rfl, Or.inl ?_⟩, by simp [hF],
          fun _ => ⟨m.filename, rfl, [.part m.filename], ?_, by simp⟩⟩ <;>
        simp [St.rollback, St.apply, St.tick, St.logEv, htx, DB.addEff]
      | crash =>
        refine ⟨rfl, ⟨[m.filename], by simp, ?_⟩, by simp [hF],
          fun _ => ⟨m.filename, rfl, [.part m.filename], ?_, by simp, Or.inl ?_⟩⟩ <;>
        simp [St.rollback, St.apply, St.tick, St.logEv, htx, DB.addEff]
      | crashAfter =>
        refine ⟨rfl, ⟨[m.filename], by simp, ?_⟩, by simp [hF],
          fun _ => ⟨m.filename, rfl, [.script m.filename], ?_, by simp, Or.inl ?_⟩⟩ <;>
        simp [St.rollback, St.apply, St.tick, St.logEv, htx, DB.addEff]
      | ok =>
        simp only
        split
        · rename_i hskip
          rw [runLoop]
          refine ⟨?_, by simp, ?_, ⟨?_, fun _ => ?_, by simp [hskip]⟩⟩ <;>
          simp [St.rollback, St.apply, St.tick, St.logEv, htx, DB.addEff]
        · rename_i hskip
          have hskip : cfg.skipHistory = false := by simpa using hskip
          split
          · refine ⟨rfl, ?_, ⟨[], m.filename, [], rfl, rfl, Or.inl ?_⟩, by simp [hF],
              fun _ => ⟨m.filename, rfl, [.script m.filename], ?_, by simp⟩⟩ <;>
            simp [St.rollback, St.apply, St.tick, St.logEv, htx, DB.addEff]
          · refine ⟨rfl, ?_, ⟨[], m.filename, [], rfl, rfl, Or.inl ?_⟩, by simp [hF],
              fun _ => ⟨m.filename, rfl, [.script m.filename], ?_, by simp⟩⟩ <;>
            simp [St.rollback, St.apply, St.tick, St.logEv, htx, DB.addEff]
          · refine ⟨rfl, ⟨[m.filename], by simp, ?_⟩, by simp [hF],
              fun _ => ⟨m.filename, rfl, [.script m.filename], ?_, by simp, Or.inl ?_⟩⟩ <;>
            simp [St.rollback, St.apply, St.tick, St.logEv, htx, DB.addEff]
          · refine ⟨rfl, ⟨[m.filename], by simp, ?_⟩, by simp [hF],
              fun _ => ⟨m.filename, rfl, [.script m.filename], ?_, by simp, Or.inr ⟨rfl, hskip, ?_⟩⟩⟩
            · simp [St.rollback, St.apply, St.tick, St.logEv, htx]
            · simp [St.rollback, St.apply, St.tick, St.logEv, htx, DB.addEff, DB.upsert]
            · simpa [St.rollback, St.apply, St.tick, St.logEv, htx, DB.addEff, DB.upsert] using rec1 _
          · rw [runLoop]
            refine ⟨?_, by simp, ?_, ⟨?_, by simp [hskip], fun _ => ?_⟩⟩
            · simp [St.rollback, St.apply, St.tick, St.logEv, htx]
            · simp [St.rollback, St.apply, St.tick, St.logEv, htx]
            · simp [St.rollback, St.apply, St.tick, St.logEv, htx, DB.addEff, DB.upsert]
            · simpa [St.rollback, St.apply, St.tick, St.logEv, htx, DB.addEff, DB.upsert] using rec1 _

/-- Rows written after a failure: unchanged, or present with success = false. -/
def FailRows (q : List Mig) (h h' : History) : Prop :=
  ∀ g, h' g = h g ∨ (g ∈ names q ∧ ∃ r, h' g = some r ∧ r.success = false)

theorem FailRows.refl (q : List Mig) (h : History) : FailRows q h h := fun _ => Or.inl rfl

theorem upsertFailed_spec (ms : List Mig) (d : DB) :
    (upsertFailed ms d).eff = d.eff ∧
    (∀ g, g ∉ names ms → (upsertFailed ms d).hist g = d.hist g) ∧
    (∀ g, g ∈ names ms → ∃ r, (upsertFailed ms d).hist g = some r ∧ r.success = false) := by
  induction ms generalizing d with
  | nil => simp [upsertFailed]
  | cons m ms ih =>
    have e : upsertFailed (m :: ms) d =
        upsertFailed ms (d.upsert m.filename ⟨m.checksum, m.startedAt, false⟩) := rfl
    rw [e]
    obtain ⟨h1, h2, h3⟩ := ih (d.upsert m.filename ⟨m.checksum, m.startedAt, false⟩)
    refine ⟨h1, ?_, ?_⟩
    · intro g hg
      simp at hg
      rw [h2 g hg.2]; simp [DB.upsert, History.upsert, hg.1]
    · intro g hg
      by_cases hm : g ∈ names ms
      · exact h3 g hm
      · simp [hm] at hg
        rw [h2 g hm]; subst hg
        exact ⟨_, by simp [DB.upsert, History.upsert]; rfl, rfl⟩

theorem upsertFailed_rows {ms q : List Mig} {d : DB} (h : ∀ g, g ∈ names ms → g ∈ names q) :
    FailRows q d.hist (upsertFailed ms d).hist := by
  intro g
  obtain ⟨_, h2, h3⟩ := upsertFailed_spec ms d
  by_cases hg : g ∈ names ms
  · exact Or.inr ⟨h g hg, h3 g hg⟩
  · exact Or.inl (h2 g hg)

theorem names_take (ms : List Mig) (k : Nat) (g : Str) (h : g ∈ names (ms.take k)) : g ∈ names ms := by
  obtain ⟨m, hm, rfl⟩ := List.mem_map.1 h
  exact List.mem_map.2 ⟨m, List.mem_of_mem_take hm, rfl⟩

/-- What `giveUp` does, for a single-file batch when not retryable. -/
structure GiveUpSpec (cfg : Cfg) (env : Env) (retryable : Bool) (q : List Mig)
    (ms : Option (List Mig)) (e : Err) (st : St) (x : Outcome × St) : Prop where
  tx : x.2.tx = none
  out : x.1 = .crashed ∨ ∃ uf, x.1 = .error (ms.bind fun ms => ms.getLast?.map (·.filename)) e uf
  log : (retryable = true ∧ x.2.log = st.log) ∨
    (retryable = false ∧ ∃ f, names q = [f] ∧
      ((env.files (undoFile f) = none ∧ x.2.log = st.log ∧ x.2.db.eff = st.db.eff) ∨
       ((env.files (undoFile f)).isSome ∧ x.2.log = st.log ++ [.undo f] ∧
        (x.2.db.eff = st.db.eff ∨ x.2.db.eff = st.db.eff ++ [.undo f]))))
  eff : retryable = true → x.2.db.eff = st.db.eff
  rows : FailRows q st.db.hist x.2.db.hist
  recorded : ∀ l, ms = some l → cfg.skipHistory = false → x.1 ≠ .crashed → env.res (x.2.t - 1) = .ok →
    ∀ g ∈ names l, ∃ r, x.2.db.hist g = some r ∧ r.success = false

theorem giveUp_spec (cfg : Cfg) (env : Env) (retryable : Bool) (q : List Mig)
    (ms : Option (List Mig)) (e : Err) (st : St) (htx : st.tx = none)
    (hq : retryable = false → ∃ m, q = [m])
    (hms : ∀ l, ms = some l → ∀ g, g ∈ names l → g ∈ names q) :
    GiveUpSpec cfg env retryable q ms e st (giveUp cfg env retryable q ms e st) := by
  -- the part after the undo script
  have after : ∀ (uf : Bool) (s : St), s.tx = none → s.db.hist = st.db.hist →
      ((retryable = true ∧ s.log = st.log) ∨
        (retryable = false ∧ ∃ f, names q = [f] ∧
          ((env.files (undoFile f) = none ∧ s.log = st.log ∧ s.db.eff = st.db.eff) ∨
           ((env.files (undoFile f)).isSome ∧ s.log = st.log ++ [.undo f] ∧
            (s.db.eff = st.db.eff ∨ s.db.eff = st.db.eff ++ [.undo f]))))) →
      (retryable = true → s.db.eff = st.db.eff) →
      GiveUpSpec cfg env retryable q ms e st (recordFailed cfg env ms e uf s) := by
    intro uf s h1 h2 h3 h4
    unfold recordFailed
    cases ms with
    | none =>
      exact ⟨h1, Or.inr ⟨uf, rfl⟩, h3, h4, by rw [h2]; exact FailRows.refl _ _, by simp⟩
    | some l =>
      simp only
      by_cases hskip : cfg.skipHistory = true
      · simp only [hskip, if_true]
        exact ⟨h1, Or.inr ⟨uf, rfl⟩, h3, h4, by rw [h2]; exact FailRows.refl _ _, by simp [hskip]⟩
      · simp only [hskip]
        simp only [Bool.false_eq_true, if_false]
        have e1 : ∀ l', (s.tick.apply (upsertFailed l')).tx = none := by
          intro l'; simp [St.apply, St.tick, h1]
        have e2 : ∀ l', (s.tick.apply (upsertFailed l')).log = s.log := by
          intro l'; simp [St.apply, St.tick, h1]
        have e3 : ∀ l', (s.tick.apply (upsertFailed l')).db = upsertFailed l' s.db := by
          intro l'; simp [St.apply, St.tick, h1]
        have e4 : ∀ l', (s.tick.apply (upsertFailed l')).t = s.t + 1 := by
          intro l'; simp [St.apply, St.tick, h1]
        have e5 : ∀ l', (upsertFailed l' s.db).eff = s.db.eff := fun l' => (upsertFailed_spec l' s.db).1
        have r1 : FailRows q st.db.hist (upsertFailed l s.db).hist := by
          rw [← h2]; exact upsertFailed_rows (hms l rfl)
        have r2 : ∀ k, FailRows q st.db.hist (upsertFailed (l.take k) s.db).hist := by
          intro k; rw [← h2]
          exact upsertFailed_rows fun g hg => hms l rfl g (names_take l k g hg)
        cases hr : env.res s.t with
        | ok =>
          refine ⟨e1 _, Or.inr ⟨uf, rfl⟩, by rw [e2, e3, e5]; exact h3, by rw [e3, e5]; exact h4,
            by rw [e3]; exact r1, ?_⟩
          intro l' hl' _ _ _ g hg
          cases hl'
          rw [e3]; exact (upsertFailed_spec l s.db).2.2 g hg
        | fail =>
          refine ⟨e1 _, Or.inr ⟨uf, rfl⟩, by rw [e2, e3, e5]; exact h3, by rw [e3, e5]; exact h4,
            by rw [e3]; exact r2 _, ?_⟩
          intro l' hl' _ _ hh
          simp [e4, hr] at hh
        | lock =>
          refine ⟨e1 _, Or.inr ⟨uf, rfl⟩, by rw [e2, e3, e5]; exact h3, by rw [e3, e5]; exact h4,
            by rw [e3]; exact r2 _, ?_⟩
          intro l' hl' _ _ hh
          simp [e4, hr] at hh
        | crash =>
          exact ⟨e1 _, Or.inl rfl, by rw [e2, e3, e5]; exact h3, by rw [e3, e5]; exact h4,
            by rw [e3]; exact r2 _, fun _ _ _ h => absurd rfl h⟩
        | crashAfter =>
          exact ⟨e1 _, Or.inl rfl, by rw [e2, e3, e5]; exact h3, by rw [e3, e5]; exact h4,
            by rw [e3]; exact r1, fun _ _ _ h => absurd rfl h⟩
  unfold giveUp
  cases hret : retryable with
  | true =>
    simp only [if_true]
    rw [hret] at after
    exact after false st htx rfl (Or.inl ⟨rfl, rfl⟩) fun _ => rfl
  | false =>
    rw [hret] at after
    obtain ⟨m, rfl⟩ := hq hret
    simp only [Bool.false_eq_true, if_false]
    unfold undo
    cases hf : env.files (undoFile m.filename) with
    | none => exact after false st htx rfl (Or.inr ⟨rfl, m.filename, rfl, Or.inl ⟨hf, rfl, rfl⟩⟩) (by simp)
    | some c =>
      simp only
      cases hr : env.res (st.logEv (.undo m.filename)).t with
      | ok =>
        refine after false _ ?_ ?_ (Or.inr ⟨rfl, m.filename, rfl, Or.inr ⟨by simp [hf], ?_, Or.inr ?_⟩⟩) (by simp) <;>
        simp [St.apply, St.tick, St.logEv, htx, DB.addEff]
      | fail =>
        refine after true _ ?_ ?_ (Or.inr ⟨rfl, m.filename, rfl, Or.inr ⟨by simp [hf], ?_, Or.inl ?_⟩⟩) (by simp) <;>
        simp [St.tick, St.logEv, htx]
      | lock =>
        refine after true _ ?_ ?_ (Or.inr ⟨rfl, m.filename, rfl, Or.inr ⟨by simp [hf], ?_, Or.inl ?_⟩⟩) (by simp) <;>
        simp [St.tick, St.logEv, htx]
      | crash =>
        refine ⟨?_, Or.inl rfl, Or.inr ⟨rfl, m.filename, rfl, Or.inr ⟨by simp [hf], ?_, Or.inl ?_⟩⟩, by simp, ?_,
          fun _ _ _ h => absurd rfl h⟩
        all_goals simp [St.tick, St.logEv, htx, FailRows]
      | crashAfter =>
        refine ⟨?_, Or.inl rfl, Or.inr ⟨rfl, m.filename, rfl, Or.inr ⟨by simp [hf], ?_, Or.inr ?_⟩⟩, by simp, ?_,
          fun _ _ _ h => absurd rfl h⟩
        all_goals simp [St.apply, St.tick, St.logEv, htx, FailRows, DB.addEff]

/-- /repo/ddl/migrate_cmd.go:385 `isRetryable` -/
def retryable (cfg : Cfg) (env : Env) (q : List Mig) : Bool := isTx cfg.dialect q || isStmt cfg env q

/-- Shape of the log of one batch: attempts, each running a prefix of the batch, then possibly an
undo script. -/
structure LogSpec (cfg : Cfg) (env : Env) (q : List Mig) (n : Nat) (o : Outcome)
    (as : List (List Str)) (u : List Ev) : Prop where
  pre : ∀ a ∈ as, a <+: names q
  bound : as.length ≤ n
  nolock : (∀ t, env.res t ≠ .lock) → as.length ≤ 1
  once : retryable cfg env q = false → as.length ≤ 1
  ok : o = .ok → as.getLast? = some (names q) ∧ u = []
  err : ∀ g e uf, o = .error (some g) e uf → ∃ a b, names q = a ++ g :: b ∧
    (as.getLast? = some (a ++ [g]) ∨ (as.getLast? = some a ∧ env.files g = none))
  undo : u = [] ∨ (retryable cfg env q = false ∧ ∃ f, names q = [f] ∧ u = [.undo f] ∧
    (env.files (undoFile f)).isSome)
  undone : retryable cfg env q = false → (∃ f e uf, o = .error (some f) e uf) →
    ∃ f, names q = [f] ∧ ((env.files (undoFile f)).isSome → u = [.undo f])

structure BatchSpec (cfg : Cfg) (env : Env) (q : List Mig) (n : Nat) (st : St) (x : Outcome × St) :
    Prop where
  tx : x.2.tx = none
  log : ∃ as u, x.2.log = st.log ++ as.flatten.map .exec ++ u ∧ LogSpec cfg env q n x.1 as u
  intx : isTx cfg.dialect q = true →
    (Committed cfg q st.db x.2.db ∧ (x.1 = .ok ∨ x.1 = .crashed)) ∨
    (x.1 ≠ .ok ∧ x.2.db.eff = st.db.eff ∧ FailRows q st.db.hist x.2.db.hist)
  notx : isTx cfg.dialect q = false → ∃ f, names q = [f] ∧ ∃ es, x.2.db.eff = st.db.eff ++ es ∧
    (∀ e ∈ es, e = .script f ∨ e = .part f ∨ e = .undo f) ∧
    (x.1 = .ok → .script f ∈ es ∧ (cfg.skipHistory = true → x.2.db.hist = st.db.hist) ∧
      (cfg.skipHistory = false → Recorded q st.db.hist x.2.db.hist)) ∧
    (x.1 ≠ .ok → FailRows q st.db.hist x.2.db.hist ∨
      (x.1 = .crashed ∧ .script f ∈ es ∧ cfg.skipHistory = false ∧
        Recorded q st.db.hist x.2.db.hist))
  failed : ∀ g uf, x.1 = .error (some g) .fail uf → cfg.skipHistory = false →
    env.res (x.2.t - 1) = .ok → ∃ r, x.2.db.hist g = some r ∧ r.success = false

theorem prefix_of_split {a b : List Str} {f : Str} {q : List Str} (h : q = a ++ f :: b) :
    a <+: q ∧ (a ++ [f]) <+: q := by
  subst h
  exact ⟨List.prefix_append _ _, ⟨b, by simp⟩⟩

theorem getLast_names {ms : List Mig} {a : List Str} {f : Str} (h : names ms = a ++ [f]) :
    ms.getLast?.map (·.filename) = some f := by
  have : (names ms).getLast? = some f := by rw [h]; simp
  rw [← this, names, List.getLast?_map]

theorem runLoop_lock (cfg : Cfg) (env : Env) (acc ms ms' : List Mig) (st : St)
    (h : (runLoop cfg env acc ms st).1 = .stopped ms' .lock) : ∃ t, env.res t = .lock := by
  induction ms generalizing acc st with
  | nil => simp [runLoop] at h
  | cons m ms ih =>
    rw [runLoop] at h
    cases hfile : env.files m.filename with
    | none => simp [hfile] at h
    | some c =>
      simp only [hfile] at h
      split at h
      · simp at h
      · rename_i hr; exact ⟨_, hr⟩
      · simp at h
      · simp at h
      · split at h
        · exact ih _ _ h
        · split at h
          · simp at h
          · rename_i hr; exact ⟨_, hr⟩
          · simp at h
          · simp at h
          · exact ih _ _ h

theorem run_lock (cfg : Cfg) (env : Env) (q ms' : List Mig) (st : St)
    (h : (run cfg env q st).1 = .stopped ms' .lock) : ∃ t, env.res t = .lock := by
  unfold run at h
  split at h
  · simp only at h
    split at h
    · simp at h
    · simp at h
    · simp at h
    · simp at h
    · have hl := runLoop_lock cfg env [] q ms' { st.tick with tx := some st.tick.db }
      revert h hl
      rcases runLoop cfg env [] q { st.tick with tx := some st.tick.db } with ⟨r, s⟩
      intro h hl
      cases r with
      | done ms =>
        simp only at h
        split at h
        · simp at h
        · simp at h
        · rename_i hr; exact ⟨_, hr⟩
        · simp at h
        · simp at h
      | stopped ms e => exact hl h
      | beginFailed e => simp at h
      | crashed => simp at h
  · exact runLoop_lock _ _ _ _ _ _ h

theorem batch_done {cfg env q n st} {x : RunRes × St} {ms : List Mig} (hn : 1 ≤ n)
    (hq : q ≠ []) (h : RunSpec cfg env q st x) (hr : x.1 = .done ms) :
    BatchSpec cfg env q n st (.ok, x.2) := by
  obtain ⟨h1, h2⟩ := h
  rw [hr] at h2
  obtain ⟨_, h3, h4⟩ := h2
  refine ⟨h1, ⟨[names q], [], by simp [h3], ⟨by simp, by simp [hn], by simp, by simp, by simp, by simp, by simp, by simp⟩⟩,
    fun _ => Or.inl ⟨h4, Or.inl rfl⟩, ?_, by simp⟩
  intro hT
  obtain ⟨m, rfl⟩ := isTx_false hq hT
  refine ⟨m.filename, rfl, [.script m.filename], by simp [h4.eff], by simp, fun _ => ⟨by simp, h4.skip, h4.rows⟩, by simp⟩

theorem batch_crashed {cfg env q n st} {x : RunRes × St} (hn : 1 ≤ n)
    (h : RunSpec cfg env q st x) (hr : x.1 = .crashed) :
    BatchSpec cfg env q n st (.crashed, x.2) := by
  obtain ⟨h1, h2⟩ := h
  rw [hr] at h2
  obtain ⟨⟨a, h3, h4⟩, h5, h6⟩ := h2
  refine ⟨h1, ⟨[a], [], by simp [h4], ⟨by simp [h3], by simp [hn], by simp, by simp, by simp, by simp, by simp, by simp⟩⟩,
    ?_, ?_, by simp⟩
  · intro hT
    rcases h5 hT with h5 | h5
    · exact Or.inr ⟨by simp, by rw [h5], by rw [h5]; exact FailRows.refl _ _⟩
    · exact Or.inl ⟨h5, Or.inr rfl⟩
  · intro hT
    obtain ⟨f, e1, es, e2, e3, e4⟩ := h6 hT
    refine ⟨f, e1, es, e2, ?_, by simp, ?_⟩
    · rcases e3 with rfl | rfl <;> simp
    · intro _
      rcases e4 with e4 | ⟨e4, e5, e6⟩
      · left; rw [e4]; exact FailRows.refl _ _
      · right; subst e4; exact ⟨rfl, by simp, e5, e6⟩

/-- an attempt that ended before anything was run -/
theorem batch_begin {cfg env q n st} {x : RunRes × St} {e : Err}
    (h : RunSpec cfg env q st x) (hr : x.1 = .beginFailed e) :
    isTx cfg.dialect q = true ∧ BatchSpec cfg env q n st (.panic, x.2) ∧
    (∀ y, GiveUpSpec cfg env true q none e x.2 y → BatchSpec cfg env q n st y) := by
  obtain ⟨h1, h2⟩ := h
  rw [hr] at h2
  obtain ⟨hT, h3, h4⟩ := h2
  have hret : retryable cfg env q = true := by simp [retryable, hT]
  refine ⟨hT, ⟨h1, ⟨[], [], by simp [h4], ⟨by simp, by simp, by simp, by simp, by simp, by simp, by simp, by simp [hret]⟩⟩,
    fun _ => Or.inr ⟨by simp, by rw [h3], by rw [h3]; exact FailRows.refl _ _⟩, by simp [hT], by simp⟩, ?_⟩
  intro y hy
  have hlog : y.2.log = x.2.log := by
    rcases hy.log with ⟨_, h⟩ | ⟨h, _⟩
    · exact h
    · simp at h
  have hno : ∀ g e uf, y.1 ≠ .error (some g) e uf := by
    intro g e uf h
    rcases hy.out with ho | ⟨_, ho⟩ <;> simp [h] at ho
  have hok : y.1 ≠ .ok := by
    intro h
    rcases hy.out with ho | ⟨_, ho⟩ <;> simp [h] at ho
  refine ⟨hy.tx, ⟨[], [], by simp [hlog, h4], ⟨by simp, by simp, by simp, by simp, fun h => absurd h hok,
    fun g e uf h => absurd h (hno g e uf), by simp, by simp [hret]⟩⟩, ?_, by simp [hT],
    fun g uf h => absurd h (hno g _ uf)⟩
  intro _
  refine Or.inr ⟨hok, by rw [hy.eff rfl, h3], ?_⟩
  have := hy.rows
  rw [h3] at this; exact this

/-- an attempt that stopped and is not repeated -/
theorem batch_stopped {cfg env q n st} {x : RunRes × St} {ms : List Mig} {e : Err} (hn : 1 ≤ n)
    (hq : q ≠ []) (h : RunSpec cfg env q st x) (hr : x.1 = .stopped ms e) (y : Outcome × St)
    (hy : GiveUpSpec cfg env (retryable cfg env q) q (some ms) e x.2 y) :
    BatchSpec cfg env q n st y := by
  obtain ⟨h1, h2⟩ := h
  rw [hr] at h2
  obtain ⟨h3, ⟨a, f, b, h4, h5, h6⟩, h7, h8⟩ := h2
  have hlast := getLast_names h5
  have hok : y.1 ≠ .ok := by
    intro h
    rcases hy.out with ho | ⟨_, ho⟩ <;> simp [h] at ho
  have herr : ∀ g e' uf, y.1 = .error (some g) e' uf → g = f ∧ e' = e := by
    intro g e' uf h
    rcases hy.out with ho | ⟨_, ho⟩
    · simp [h] at ho
    · simp [h, hlast] at ho; exact ⟨ho.1, ho.2.1⟩
  -- the files run by this attempt
  obtain ⟨run1, hr1, hr2, hr3⟩ : ∃ r, x.2.log = st.log ++ r.map .exec ∧ r <+: names q ∧
      (r = a ++ [f] ∨ (r = a ∧ env.files f = none)) := by
    rcases h6 with h6 | ⟨h6, h6', _⟩
    · exact ⟨a ++ [f], h6, (prefix_of_split h4).2, Or.inl rfl⟩
    · exact ⟨a, h6, (prefix_of_split h4).1, Or.inr ⟨rfl, h6'⟩⟩
  obtain ⟨u, hu1, hu2, hu3⟩ : ∃ u, y.2.log = x.2.log ++ u ∧
      (u = [] ∨ (retryable cfg env q = false ∧ ∃ f, names q = [f] ∧ u = [.undo f] ∧
        (env.files (undoFile f)).isSome)) ∧
      (retryable cfg env q = false → ∃ f, names q = [f] ∧
        ((env.files (undoFile f)).isSome → u = [.undo f])) := by
    rcases hy.log with ⟨hret, hl⟩ | ⟨hret, g, hg, hl⟩
    · exact ⟨[], by simp [hl], Or.inl rfl, by simp [hret]⟩
    · rcases hl with ⟨hl1, hl2, _⟩ | ⟨hl1, hl2, _⟩
      · exact ⟨[], by simp [hl2], Or.inl rfl, fun _ => ⟨g, hg, by simp [hl1]⟩⟩
      · exact ⟨[.undo g], by simp [hl2], Or.inr ⟨hret, g, hg, rfl, hl1⟩, fun _ => ⟨g, hg, fun _ => rfl⟩⟩
  refine ⟨hy.tx, ⟨[run1], u, by simp [hu1, hr1], ⟨by simpa using hr2, by simp [hn], by simp, by simp,
    fun h => absurd h hok, ?_, hu2, fun h _ => hu3 h⟩⟩, ?_, ?_, ?_⟩
  · intro g e' uf h
    obtain ⟨rfl, _⟩ := herr g e' uf h
    refine ⟨a, b, h4, ?_⟩
    rcases hr3 with rfl | ⟨rfl, h⟩
    · exact Or.inl rfl
    · exact Or.inr ⟨rfl, h⟩
  · intro hT
    have hret : retryable cfg env q = true := by simp [retryable, hT]
    refine Or.inr ⟨hok, by rw [hy.eff hret, h7 hT], ?_⟩
    have := hy.rows
    rw [h3] at this; exact this
  · intro hT
    obtain ⟨f', e1, es, e2, e3⟩ := h8 hT
    have hrows : FailRows q st.db.hist y.2.db.hist := by
      have := hy.rows
      rw [h3] at this; exact this
    obtain ⟨es', e4, e5⟩ : ∃ es', y.2.db.eff = x.2.db.eff ++ es' ∧ (es' = [] ∨ es' = [.undo f']) := by
      rcases hy.log with ⟨hret, _⟩ | ⟨_, g, hg, hl⟩
      · exact ⟨[], by simp [hy.eff hret], Or.inl rfl⟩
      · rw [e1] at hg; simp at hg; subst hg
        rcases hl with ⟨_, _, hl⟩ | ⟨_, _, hl | hl⟩
        · exact ⟨[], by simp [hl], Or.inl rfl⟩
        · exact ⟨[], by simp [hl], Or.inl rfl⟩
        · exact ⟨_, hl, Or.inr rfl⟩
    refine ⟨f', e1, es ++ es', by rw [e4, e2, List.append_assoc], ?_, fun h => absurd h hok,
      fun _ => Or.inl hrows⟩
    rcases e3 with rfl | rfl | rfl <;> rcases e5 with rfl | rfl <;> simp
  · intro g uf h hs hres
    obtain ⟨rfl, _⟩ := herr g _ uf h
    exact hy.recorded ms rfl hs (by rw [h]; simp) hres g (by rw [h5]; simp)

/-- the last attempt timed out: nothing is recorded -/
theorem batch_timeout {cfg env q n st} {x : RunRes × St} {ms : List Mig} (hn : 1 ≤ n)
    (hret : retryable cfg env q = true)
    (h : RunSpec cfg env q st x) (hr : x.1 = .stopped ms .lock) (o : Outcome)
    (ho : o = .error (ms.getLast?.map (·.filename)) .lock false ∨ o = .panic) :
    BatchSpec cfg env q n st (o, x.2) := by
  obtain ⟨h1, h2⟩ := h
  rw [hr] at h2
  obtain ⟨h3, ⟨a, f, b, h4, h5, h6⟩, h7, h8⟩ := h2
  have hlast := getLast_names h5
  have h6 : x.2.log = st.log ++ (a ++ [f]).map .exec := by
    rcases h6 with h6 | ⟨_, _, h⟩
    · exact h6
    · simp at h
  rw [hlast] at ho
  have hok : o ≠ .ok := by rcases ho with rfl | rfl <;> simp
  have hfr : FailRows q st.db.hist x.2.db.hist := by rw [h3]; exact FailRows.refl _ _
  refine ⟨h1, ⟨[a ++ [f]], [], by simp [h6], ⟨by simpa using (prefix_of_split h4).2, by simp [hn],
    by simp, by simp, fun h => absurd h hok, ?_, by simp, by simp [hret]⟩⟩,
    fun hT => Or.inr ⟨hok, h7 hT, hfr⟩, ?_, ?_⟩
  · intro g e uf h
    rcases ho with rfl | rfl <;> simp at h
    obtain ⟨rfl, _⟩ := h
    exact ⟨a, b, h4, Or.inl rfl⟩
  · intro hT
    obtain ⟨f', e1, es, e2, e3⟩ := h8 hT
    refine ⟨f', e1, es, e2, ?_, fun h => absurd h hok, fun _ => Or.inl hfr⟩
    rcases e3 with rfl | rfl | rfl <;> simp
  · intro g uf h
    rcases ho with rfl | rfl <;> simp at h

/-- an attempt that timed out, followed by more attempts -/
theorem batch_again {cfg env q n st} {x : RunRes × St} {ms : List Mig}
    (hret : retryable cfg env q = true) (hlock : ∃ t, env.res t = .lock)
    (h : RunSpec cfg env q st x) (hr : x.1 = .stopped ms .lock) (y : Outcome × St)
    (hy : BatchSpec cfg env q n x.2 y) : BatchSpec cfg env q (n + 1) st y := by
  obtain ⟨h1, h2⟩ := h
  rw [hr] at h2
  obtain ⟨h3, ⟨a, f, b, h4, h5, h6⟩, h7, h8⟩ := h2
  have h6 : x.2.log = st.log ++ (a ++ [f]).map .exec := by
    rcases h6 with h6 | ⟨_, _, h⟩
    · exact h6
    · simp at h
  obtain ⟨as, u, l1, l2⟩ := hy.log
  have hlastcons : ∀ z, as.getLast? = some z → ((a ++ [f]) :: as).getLast? = some z := by
    intro z hz
    cases as with
    | nil => simp at hz
    | cons p ps => simpa using hz
  refine ⟨hy.tx, ⟨(a ++ [f]) :: as, u, by simp [l1, h6], ⟨?_, ?_, ?_, by simp [hret], ?_, ?_, l2.undo, by simp [hret]⟩⟩,
    ?_, ?_, hy.failed⟩
  · intro p hp
    rcases List.mem_cons.1 hp with rfl | hp
    · exact (prefix_of_split h4).2
    · exact l2.pre p hp
  · have := l2.bound; simp; omega
  · intro hno
    obtain ⟨t, ht⟩ := hlock
    exact absurd ht (hno t)
  · intro ho
    exact ⟨hlastcons _ (l2.ok ho).1, (l2.ok ho).2⟩
  · intro g e uf ho
    obtain ⟨a', b', e1, e2⟩ := l2.err g e uf ho
    refine ⟨a', b', e1, ?_⟩
    rcases e2 with e2 | ⟨e2, e3⟩
    · exact Or.inl (hlastcons _ e2)
    · exact Or.inr ⟨hlastcons _ e2, e3⟩
  · intro hT
    rcases hy.intx hT with ⟨hc, ho⟩ | ⟨ho, he, hf⟩
    · left
      refine ⟨⟨by rw [hc.eff, h7 hT], fun hs => by rw [hc.skip hs, h3], fun hs => ?_⟩, ho⟩
      have := hc.rows hs
      rw [h3] at this; exact this
    · right
      refine ⟨ho, by rw [he, h7 hT], ?_⟩
      rw [h3] at hf; exact hf
  · intro hT
    obtain ⟨f', e1, es, e2, e3⟩ := h8 hT
    obtain ⟨f'', k1, es', k2, k3, k4, k5⟩ := hy.notx hT
    rw [e1] at k1; simp at k1; subst k1
    rw [h3] at k4 k5
    refine ⟨f', e1, es ++ es', by rw [k2, e2, List.append_assoc], ?_, ?_, ?_⟩
    · intro e he
      rcases List.mem_append.1 he with he | he
      · rcases e3 with rfl | rfl | rfl
        · simp at he
        · simp at he; simp [he]
        · simp at he; simp [he]
      · exact k3 e he
    · intro ho
      exact ⟨by simp [(k4 ho).1], (k4 ho).2⟩
    · intro ho
      rcases k5 ho with k5 | ⟨k5, k6, k7⟩
      · exact Or.inl k5
      · exact Or.inr ⟨k5, by simp [k6], k7⟩

theorem retryLoop_spec (cfg : Cfg) (env : Env) (q : List Mig) (hq : q ≠ []) (left attempts : Nat)
    (st : St) (htx : st.tx = none) :
    BatchSpec cfg env q (left + 1) st (retryLoop cfg env q left attempts st) := by
  induction left generalizing attempts st with
  | zero =>
    have h := run_spec cfg env q st hq htx
    have hl := fun ms => run_lock cfg env q ms st
    rw [retryLoop]
    revert h hl
    rcases run cfg env q st with ⟨r, s⟩
    intro h hl
    cases r <;> dsimp only
    case done ms => exact batch_done (by omega) hq h rfl
    case crashed => exact batch_crashed (by omega) h rfl
    case beginFailed e =>
      obtain ⟨hT, h2, h3⟩ := batch_begin (n := 0 + 1) h rfl
      split
      · exact h2
      · have hret : (isTx cfg.dialect q || isStmt cfg env q) = true := by simp [hT]
        rw [hret]
        exact h3 _ (giveUp_spec _ _ _ _ _ _ _ h.tx (by simp) (by simp))
    case stopped ms e =>
      split
      · rename_i he
        obtain ⟨rfl, hret⟩ := he
        exact batch_timeout (by omega) hret h rfl _ (Or.inl rfl)
      · have h2 := h.res
        obtain ⟨_, ⟨a, f, b, h4, h5, _⟩, _⟩ := h2
        refine batch_stopped (by omega) hq h rfl _ (giveUp_spec _ _ _ _ _ _ _ h.tx ?_ ?_)
        · intro hr
          simp [retryable] at hr
          exact isTx_false hq hr.1
        · intro l hl g hg
          cases hl
          rw [h5] at hg
          exact (prefix_of_split h4).2.mem hg
  | succ left ih =>
    have h := run_spec cfg env q st hq htx
    have hl := fun ms => run_lock cfg env q ms st
    rw [retryLoop]
    revert h hl
    rcases run cfg env q st with ⟨r, s⟩
    intro h hl
    cases r <;> dsimp only
    case done ms => exact batch_done (by omega) hq h rfl
    case crashed => exact batch_crashed (by omega) h rfl
    case beginFailed e =>
      obtain ⟨hT, h2, h3⟩ := batch_begin (n := left + 1 + 1) h rfl
      split
      · exact h2
      · have hret : (isTx cfg.dialect q || isStmt cfg env q) = true := by simp [hT]
        rw [hret]
        exact h3 _ (giveUp_spec _ _ _ _ _ _ _ h.tx (by simp) (by simp))
    case stopped ms e =>
      split
      · rename_i he
        obtain ⟨rfl, hret⟩ := he
        split
        · exact batch_timeout (by omega) hret h rfl _ (Or.inr rfl)
        · exact batch_again hret (hl ms rfl) h rfl _ (ih _ _ h.tx)
      · have h2 := h.res
        obtain ⟨_, ⟨a, f, b, h4, h5, _⟩, _⟩ := h2
        refine batch_stopped (by omega) hq h rfl _ (giveUp_spec _ _ _ _ _ _ _ h.tx ?_ ?_)
        · intro hr
          simp [retryable] at hr
          exact isTx_false hq hr.1
        · intro l hl g hg
          cases hl
          rw [h5] at hg
          exact (prefix_of_split h4).2.mem hg

end Sqddl.Migrate
