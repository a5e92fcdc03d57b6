import Verif.Lemmas.Migrate
import Verif.Spec.Migrate
import Verif.Props.Files
import Verif.Props.Quote
import Verif.Props.Sprint

namespace Sqddl.Migrate
open MigrateSpec FileSpec

/-! ## spec predicates versus model functions -/

theorem isTx_iff (d : Dialect) (q : List Mig) (hq : q ≠ []) :
    isTx d q = true ↔ InTx d (names q) := by
  unfold isTx InTx
  match q, hq with
  | [m], _ =>
    simp only [List.length_singleton, names_cons, names_nil, isTxoffFile, isTxFile]
    simp only [Bool.or_eq_true, Bool.and_eq_true, Bool.not_eq_true', ← Bool.not_eq_true,
      hasSuffix_iff, decide_eq_true_eq]
    constructor
    · rintro (h | h)
      · omega
      · exact Or.inr ⟨_, rfl, h⟩
    · rintro (h | ⟨f, h, h2⟩)
      · omega
      · simp at h; subst h; exact Or.inr h2
  | m :: m2 :: q, _ => simp

theorem trimSpace_count (c : Str) : (Go.trimSpace c).count ';' = c.count ';' := by
  have h : ∀ s : Str, (s.dropWhile Go.isSpace).count ';' = s.count ';' := by
    intro s
    induction s with
    | nil => rfl
    | cons a s ih =>
      rw [List.dropWhile_cons]
      split
      · rename_i ha
        rw [ih, List.count_cons_of_ne]
        rintro rfl; simp [Go.isSpace] at ha
      · rfl
  simp [Go.trimSpace, h]

theorem dropWhile_append_of_false {p : Char → Bool} (a : Str) (x : Char) (b : Str) (h : p x = false) :
    (a ++ x :: b).dropWhile p = a.dropWhile p ++ x :: b := by
  induction a with
  | nil => simp [h]
  | cons y a ih =>
    simp only [List.cons_append, List.dropWhile_cons]
    split
    · exact ih
    · rfl

theorem count_space (b : Str) (h : ∀ x ∈ b, Go.isSpace x = true) : ';' ∉ b := by
  intro hm
  have := h _ hm
  simp [Go.isSpace] at this

theorem isSingleStmt_iff (c : Str) : isSingleStmt c = true ↔ OneStatement c := by
  unfold isSingleStmt OneStatement
  simp only [Bool.and_eq_true, beq_iff_eq, trimSpace_count]
  constructor
  · rintro ⟨h1, h2⟩
    have e1 := List.takeWhile_append_dropWhile (p := Go.isSpace) (l := c)
    have e2 := List.takeWhile_append_dropWhile (p := Go.isSpace) (l := (c.dropWhile Go.isSpace).reverse)
    have e3 : c.dropWhile Go.isSpace = Go.trimSpace c ++
        ((c.dropWhile Go.isSpace).reverse.takeWhile Go.isSpace).reverse := by
      have := congrArg List.reverse e2
      rw [List.reverse_reverse, List.reverse_append] at this
      exact this.symm
    have hne : Go.trimSpace c ≠ [] := by intro h; simp [h] at h2
    have e4 := List.dropLast_concat_getLast hne
    rw [List.getLast?_eq_some_getLast hne] at h2
    simp only [Option.some.injEq] at h2
    rw [h2] at e4
    have e5 : c = (c.takeWhile Go.isSpace ++ (Go.trimSpace c).dropLast) ++ ';' ::
        ((c.dropWhile Go.isSpace).reverse.takeWhile Go.isSpace).reverse := by
      refine e1.symm.trans ((congrArg (c.takeWhile Go.isSpace ++ ·) e3).trans ?_)
      refine (congrArg (fun z => c.takeWhile Go.isSpace ++ (z ++ _)) e4.symm).trans ?_
      simp
    have hs : ∀ x ∈ ((c.dropWhile Go.isSpace).reverse.takeWhile Go.isSpace).reverse, Go.isSpace x = true := by
      intro x hx
      rw [List.mem_reverse] at hx
      exact List.all_eq_true.1 (List.all_takeWhile (l := (c.dropWhile Go.isSpace).reverse)) x hx
    refine ⟨_, _, e5, ?_, hs⟩
    have h3 := h1
    rw [e5, List.count_append, List.count_cons_self,
      List.count_eq_zero_of_not_mem (count_space _ hs)] at h3
    exact List.count_eq_zero.1 (by omega)
  · rintro ⟨a, b, rfl, ha, hb⟩
    have hsemi : Go.isSpace ';' = false := by decide
    constructor
    · rw [List.count_append, List.count_cons_self, List.count_eq_zero_of_not_mem (count_space _ hb),
        List.count_eq_zero_of_not_mem ha]
    · rw [Go.trimSpace, dropWhile_append_of_false _ _ _ hsemi, List.reverse_append, List.reverse_cons,
        List.append_assoc, List.singleton_append, dropWhile_append_of_false _ _ _ hsemi,
        dropWhile_all (by simpa using hb)]
      simp

theorem retryable_iff (cfg : Cfg) (env : Env) (q : List Mig) (hq : q ≠ []) :
    retryable cfg env q = true ↔ Retryable cfg env (names q) := by
  unfold retryable Retryable
  rw [Bool.or_eq_true, isTx_iff _ _ hq]
  by_cases hT : InTx cfg.dialect (names q)
  · simp [hT]
  · have hF : isTx cfg.dialect q = false := by
      rw [← Bool.not_eq_true, isTx_iff _ _ hq]; exact hT
    obtain ⟨m, rfl⟩ := isTx_false hq hF
    simp only [hT, false_or]
    unfold isStmt
    rw [hF]
    simp only [names_cons, names_nil]
    constructor
    · cases hf : env.files m.filename with
      | none => simp
      | some c => intro h; exact ⟨_, c, rfl, hf, (isSingleStmt_iff c).1 h⟩
    · rintro ⟨f, c, h1, h2, h3⟩
      simp at h1; subst h1
      rw [h2]; exact (isSingleStmt_iff c).2 h3

/-! ## the main loop as a list of batches -/

/-- migrations that get queued, up to the first repeatable that cannot be read -/
def queued (env : Env) : List Mig → List Mig
  | [] => []
  | m :: ms => match decision env m with
    | .skip => queued env ms
    | .openError => []
    | .queue m' => m' :: queued env ms

/-- a repeatable cannot be read -/
def opens (env : Env) : List Mig → Bool
  | [] => false
  | m :: ms => match decision env m with
    | .skip => opens env ms
    | .openError => true
    | .queue _ => opens env ms

def group (d : Dialect) : List Mig → List Mig → List (List Mig)
  | q, [] => if q = [] then [] else [q]
  | q, m :: ms => if flushBefore d q m then q :: group d [m] ms else group d (q ++ [m]) ms

def runBatches (cfg : Cfg) (env : Env) : List (List Mig) → St → Outcome × St
  | [], st => (.ok, st)
  | b :: bs, st => match runWithRetry cfg env b st with
    | (.ok, st) => runBatches cfg env bs st
    | x => x

theorem group_ne_nil (d : Dialect) (q ms : List Mig) (h : q ≠ []) : group d q ms ≠ [] := by
  induction ms generalizing q with
  | nil => simp [group, h]
  | cons m ms ih =>
    rw [group]
    split
    · simp
    · exact ih _ (by simp)

def openErr (x : Outcome × St) : Outcome × St :=
  match x with
  | (.ok, st) => (.error none .fail false, st)
  | x => x

theorem mainLoop_eq (cfg : Cfg) (env : Env) (ms q : List Mig) (st : St) :
    mainLoop cfg env ms q st =
      if opens env ms then openErr (runBatches cfg env (group cfg.dialect q (queued env ms)).dropLast st)
      else runBatches cfg env (group cfg.dialect q (queued env ms)) st := by
  induction ms generalizing q st with
  | nil =>
    simp only [mainLoop, opens, queued, group]
    by_cases h : q = []
    · simp [h, runBatches]
    · simp only [h, if_false, Bool.false_eq_true]
      rw [runBatches]
      rcases hr : runWithRetry cfg env q st with ⟨o, s⟩
      cases o <;> simp [runBatches]
  | cons m ms ih =>
    rw [mainLoop, opens, queued]
    cases hd : decision env m with
    | skip => simp only [ih]
    | openError =>
      simp only [if_true]
      rw [group]
      split <;> simp [runBatches, openErr]
    | queue m' =>
      simp only [group]
      split
      · rw [List.dropLast_cons_of_ne_nil (group_ne_nil _ _ _ (by simp)), runBatches, runBatches]
        rcases hr : runWithRetry cfg env q st with ⟨o, s⟩
        cases o
        case ok => simp only [ih]
        all_goals simp [openErr]
      · rw [ih]

/-! ## batching -/

theorem group_flatten (d : Dialect) (q ms : List Mig) : (group d q ms).flatten = q ++ ms := by
  induction ms generalizing q with
  | nil => rw [group]; split <;> simp_all
  | cons m ms ih =>
    rw [group]
    split
    · simp [ih]
    · simp [ih]

def BatchShape (d : Dialect) (q : List Mig) : Prop :=
  q ≠ [] ∧ (q.length > 1 → d ≠ .mysql ∧ ∀ m ∈ q, isTxFile m.filename = false ∧ isTxoffFile m.filename = false)

theorem group_shape (d : Dialect) (q ms : List Mig) (hq : q = [] ∨ BatchShape d q) :
    ∀ b ∈ group d q ms, BatchShape d b := by
  induction ms generalizing q with
  | nil =>
    rw [group]
    split
    · simp
    · rename_i h
      simpa [h] using hq
  | cons m ms ih =>
    rw [group]
    have h1 : BatchShape d [m] := ⟨by simp, by simp⟩
    split
    · rename_i hf
      have hne : q ≠ [] := by rintro rfl; simp [flushBefore] at hf
      intro b hb
      rcases List.mem_cons.1 hb with rfl | hb
      · simpa [hne] using hq
      · exact ih [m] (Or.inr h1) b hb
    · rename_i hf
      refine ih _ (Or.inr ?_)
      match q, hq, hf with
      | [], _, _ => exact h1
      | m0 :: q, hq, hf =>
        simp [flushBefore] at hf
        refine ⟨by simp, fun _ => ⟨by simp [hf], ?_⟩⟩
        rcases hq with hq | hq
        · simp at hq
        intro x hx
        simp at hx
        rcases hx with rfl | hx | rfl
        · simp [hf]
        · have : (m0 :: q).length > 1 := by
            cases q with
            | nil => simp at hx
            | cons => simp
          exact (hq.2 this).2 x (by simp [hx])
        · simp [hf]

/-! ## one batch -/

def QOK (env : Env) (m : Mig) : Prop :=
  isRepeatable m.filename = true → ∃ c, env.files m.filename = some c ∧ m.checksum = env.sha (crlfToLf c)

theorem Recorded.written {env : Env} {q : List Mig} {h h' : History} (hr : Recorded q h h')
    (hq : ∀ m ∈ q, QOK env m) : RowsWritten env (names q) h h' := by
  refine ⟨hr.frame, ?_, ?_⟩
  · intro f hf
    obtain ⟨m, hm, rfl⟩ := List.mem_map.1 hf
    exact hr.rows m hm
  · intro hn f hf
    obtain ⟨m, hm, rfl⟩ := List.mem_map.1 hf
    obtain ⟨t, ht⟩ := hr.checksum hn m hm
    refine ⟨_, ht, rfl, ?_⟩
    intro hrep
    obtain ⟨c, h1, h2⟩ := hq m hm ((isRepeatable_iff _).2 hrep)
    exact ⟨c, h1, h2⟩

theorem runWithRetry_spec (cfg : Cfg) (env : Env) (q : List Mig) (st : St) (htx : st.tx = none)
    (hs : BatchShape cfg.dialect q) (hq : ∀ m ∈ q, QOK env m) :
    ∃ s : Seg, s.files = names q ∧ s.outcome = (runWithRetry cfg env q st).1 ∧
      (runWithRetry cfg env q st).2.log = st.log ++ s.events ∧
      (runWithRetry cfg env q st).2.tx = none ∧
      GoodSeg cfg env s st.db (runWithRetry cfg env q st).2.db := by
  have shape : (names q).length > 1 → cfg.dialect ≠ .mysql ∧
      ∀ f ∈ names q, ¬ EndsWith f b!".tx.sql" ∧ ¬ EndsWith f b!".txoff.sql" := by
    intro hl
    obtain ⟨h1, h2⟩ := hs.2 (by simpa [names] using hl)
    refine ⟨h1, ?_⟩
    intro f hf
    obtain ⟨m, hm, rfl⟩ := List.mem_map.1 hf
    obtain ⟨h3, h4⟩ := h2 m hm
    rw [← hasSuffix_iff, ← hasSuffix_iff]
    simp only [isTxFile, isTxoffFile] at h3 h4
    simp [h3, h4]
  have hne : names q ≠ [] := by simpa [names] using hs.1
  unfold runWithRetry
  dsimp only
  split
  · rename_i he
    have hF : ¬ InTx cfg.dialect (names q) := by rw [← isTx_iff _ _ hs.1]; simp [he.1]
    obtain ⟨m, rfl⟩ := isTx_false hs.1 he.1
    refine ⟨⟨names [m], [], [], [], .error none .fail false, .ok⟩, rfl, rfl, by simp [St.logEv, Seg.events, names],
      by simp [St.logEv, htx], ⟨hne, shape, by simp, by simp, by simp, by simp, by simp, by simp, by simp,
      by simp, by simp [St.logEv], fun h => absurd h hF, ?_, by simp⟩⟩
    intro _
    exact ⟨m.filename, rfl, by simp, by simp, fun _ => Or.inl fun g => Or.inl rfl⟩
  · have h := retryLoop_spec cfg env q hs.1 (cfg.maxAttempts - 1).toNat 1
      (st.logEv (.batch (q.map (·.filename)))) htx
    generalize retryLoop cfg env q (cfg.maxAttempts - 1).toNat 1
      (st.logEv (.batch (q.map (·.filename)))) = x at h ⊢
    obtain ⟨o, s'⟩ := x
    obtain ⟨as, u, h1, h2⟩ := h.log
    obtain ⟨es, hes⟩ : ∃ es, s'.db.eff = st.db.eff ++ es := by
      by_cases hT : isTx cfg.dialect q = true
      · rcases h.intx hT with h3 | h3
        · exact ⟨_, h3.1.eff⟩
        · exact ⟨[], by simpa [St.logEv] using h3.2.1⟩
      · obtain ⟨f, _, es, h3, _⟩ := h.notx (by simpa using hT)
        exact ⟨es, h3⟩
    refine ⟨⟨names q, as, u, es, o, env.res (s'.t - 1)⟩, rfl, rfl, ?_, h.tx, ⟨hne, shape, h2.pre, ?_, h2.nolock, ?_,
      h2.ok, h2.err, ?_, ?_, hes, ?_, ?_, ?_⟩⟩
    · dsimp only at h1 ⊢
      rw [h1]; simp [St.logEv, Seg.events, names]
    · have := h2.bound
      simp only
      omega
    · intro hr
      exact h2.once (by rw [← Bool.not_eq_true, retryable_iff _ _ _ hs.1]; exact hr)
    · rcases h2.undo with hu | ⟨hu, hu2⟩
      · exact Or.inl hu
      · refine Or.inr ⟨?_, hu2⟩
        rw [← retryable_iff _ _ _ hs.1]; simp [hu]
    · intro hr
      exact h2.undone (by rw [← Bool.not_eq_true, retryable_iff _ _ _ hs.1]; exact hr)
    · intro hT
      rcases h.intx ((isTx_iff _ _ hs.1).2 hT) with ⟨h3, h4⟩ | ⟨h3, h4, h5⟩
      · left
        have := h3.eff
        rw [hes] at this
        refine ⟨by simpa [St.logEv] using this, h4, h3.skip, fun hk => (h3.rows hk).written hq⟩
      · right
        have h4 : s'.db.eff = st.db.eff := h4
        rw [hes] at h4
        exact ⟨by simpa using h4, h3, h5⟩
    · intro hT
      obtain ⟨f, h3, es', h4, h5, h6, h7⟩ := h.notx (by rw [← Bool.not_eq_true, isTx_iff _ _ hs.1]; exact hT)
      have h4 : s'.db.eff = st.db.eff ++ es' := h4
      rw [hes] at h4
      have : es = es' := by simpa using h4
      subst this
      refine ⟨f, h3, h5, ?_, ?_⟩
      · intro ho
        obtain ⟨a1, a2, a3⟩ := h6 ho
        exact ⟨a1, a2, fun hk => (a3 hk).written hq⟩
      · intro ho
        rcases h7 ho with h8 | ⟨a1, a2, a3, a4⟩
        · exact Or.inl h8
        · exact Or.inr ⟨a1, a2, a3, a4.written hq⟩
    · intro f uf ho hk hl
      exact h.failed f uf ho hk hl

/-! ## a list of batches -/

theorem runBatches_spec (cfg : Cfg) (env : Env) (bs : List (List Mig)) (st : St) (htx : st.tx = none)
    (hs : ∀ b ∈ bs, BatchShape cfg.dialect b) (hq : ∀ b ∈ bs, ∀ m ∈ b, QOK env m) :
    ∃ segs : List Seg,
      (runBatches cfg env bs st).2.log = st.log ++ segs.flatMap Seg.events ∧
      (runBatches cfg env bs st).2.tx = none ∧
      Trace cfg env st.db segs (runBatches cfg env bs st).2.db ∧
      segs.map (·.files) <+: bs.map names ∧
      ((runBatches cfg env bs st).1 = .ok → segs.map (·.files) = bs.map names ∧
        ∀ s ∈ segs, s.outcome = .ok) ∧
      ((runBatches cfg env bs st).1 ≠ .ok → ∃ a s, segs = a ++ [s] ∧
        s.outcome = (runBatches cfg env bs st).1) := by
  induction bs generalizing st with
  | nil => exact ⟨[], by simp [runBatches], htx, Trace.nil _, by simp, by simp, by simp [runBatches]⟩
  | cons b bs ih =>
    obtain ⟨s, h1, h2, h3, h4, h5⟩ := runWithRetry_spec cfg env b st htx (hs b (by simp)) (hq b (by simp))
    rw [runBatches]
    revert h2 h3 h4 h5
    rcases runWithRetry cfg env b st with ⟨o, st1⟩
    intro h2 h3 h4 h5
    dsimp only at h2 h3 h4 h5
    cases o
    case ok =>
      obtain ⟨segs, k1, k2, k3, k4, k5, k6⟩ := ih st1 h4 (fun b hb => hs b (by simp [hb]))
        (fun b hb => hq b (by simp [hb]))
      refine ⟨s :: segs, by simp [k1, h3], k2, Trace.cons h5 (Or.inl h2) k3, ?_, ?_, ?_⟩
      · simp [h1, k4]
      · intro ho
        refine ⟨by simp [h1, (k5 ho).1], ?_⟩
        intro x hx
        rcases List.mem_cons.1 hx with rfl | hx
        · exact h2
        · exact (k5 ho).2 x hx
      · intro ho
        obtain ⟨a, s', e1, e2⟩ := k6 ho
        exact ⟨s :: a, s', by simp [e1], e2⟩
    all_goals
      exact ⟨[s], by simp [h3], h4, Trace.cons h5 (Or.inr rfl) (Trace.nil _), by simp [h1], by simp,
        fun _ => ⟨[], s, rfl, h2⟩⟩

/-! ## the decisions -/

theorem queued_names_sublist (env : Env) (ms : List Mig) : (names (queued env ms)).Sublist (names ms) := by
  induction ms with
  | nil => simp [queued]
  | cons m ms ih =>
    rw [queued]
    have hd : ∀ m', decision env m = .queue m' → m'.filename = m.filename := by
      intro m'
      unfold decision
      dsimp only
      repeat' split
      all_goals simp
      all_goals (rintro rfl; rfl)
    cases h : decision env m with
    | skip => exact ih.cons _
    | openError => simp
    | queue m' =>
      simp only [names_cons, hd m' h]
      exact ih.cons_cons _

theorem queued_ok (env : Env) (ms : List Mig) : ∀ m ∈ queued env ms, QOK env m := by
  induction ms with
  | nil => simp [queued]
  | cons m ms ih =>
    rw [queued]
    cases h : decision env m with
    | skip => exact ih
    | openError => simp
    | queue m' =>
      intro x hx
      rcases List.mem_cons.1 hx with rfl | hx
      · intro hrep
        unfold decision at h
        split at h
        · simp at h
        · split at h
          · split at h
            · simp at h
            · rename_i c hc
              simp only at h
              split at h
              · simp at h
              · simp at h; subst h; exact ⟨c, hc, rfl⟩
          · simp at h; subst h; rename_i h2; exact absurd hrep h2
      · exact ih x hx

theorem mkMigs_names (sel : Str → Option Row) (fs : List Str) : names (mkMigs sel fs) = fs := by
  induction fs with
  | nil => rfl
  | cons f fs ih =>
    rw [mkMigs, names_cons, ih]
    split
    · rfl
    · split <;> rfl

open Classical in
/-- the migrations that are not up to date according to the selected rows -/
noncomputable def todo (env : Env) (sel : History) (fs : List Str) : List Str :=
  fs.filter fun f => decide (¬ UpToDate env sel f)

def mig (f : Str) : Option Row → Mig
  | some r => ⟨true, f, r.checksum, r.startedAt, r.success⟩
  | none => ⟨false, f, [], none, false⟩

@[simp] theorem mig_filename (f : Str) (o : Option Row) : (mig f o).filename = f := by cases o <;> rfl

/-- the decision follows the specification -/
theorem decision_spec (env : Env) (sel : History) (f : Str) :
    (decision env (mig f (sel f)) = .skip ∧ UpToDate env sel f) ∨
    (decision env (mig f (sel f)) = .openError ∧ Repeatable f ∧ env.files f = none ∧ ¬ UpToDate env sel f) ∨
    (∃ m, decision env (mig f (sel f)) = .queue m ∧ m.filename = f ∧ ¬ UpToDate env sel f) := by
  unfold decision UpToDate
  simp only [← isRepeatable_iff]
  cases hr : isRepeatable f
  · cases hs : sel f with
    | none => right; right; exact ⟨_, by simp [mig, hr]; rfl, rfl, by simp⟩
    | some r =>
      cases hb : r.success
      · right; right; exact ⟨_, by simp [mig, hr, hb]; rfl, rfl, by simp [hb]⟩
      · left; exact ⟨by simp [mig, hr, hb], r, rfl, hb, by simp⟩
  · cases hf : env.files f with
    | none =>
      right; left
      refine ⟨by simp [hr, hf], rfl, rfl, ?_⟩
      rintro ⟨r, _, _, h⟩
      obtain ⟨c, h, _⟩ := h rfl
      simp at h
    | some c =>
      cases hs : sel f with
      | none => right; right; exact ⟨_, by simp [mig, hr, hf]; rfl, rfl, by simp⟩
      | some r =>
        by_cases hb : r.success = true ∧ env.sha (crlfToLf c) = r.checksum
        · left; exact ⟨by simp [mig, hr, hf, hb], r, rfl, hb.1, fun _ => ⟨c, rfl, hb.2.symm⟩⟩
        · right; right
          refine ⟨{ mig f (some r) with checksum := env.sha (crlfToLf c) }, ?_, rfl, ?_⟩
          · simp [mig, hr, hf]
            grind
          · rintro ⟨r', h1, h2, h3⟩
            simp at h1; subst h1
            obtain ⟨c', h4, h5⟩ := h3 rfl
            simp at h4; subst h4
            exact hb ⟨h2, h5.symm⟩

theorem queued_todo (env : Env) (sel : History) (fs : List Str) (hn : fs.Nodup) :
    names (queued env (mkMigs sel fs)) <+: todo env sel fs ∧
    (opens env (mkMigs sel fs) = false → names (queued env (mkMigs sel fs)) = todo env sel fs) := by
  induction fs with
  | nil => simp [mkMigs, queued, todo, opens]
  | cons f fs ih =>
    simp at hn
    obtain ⟨ih1, ih2⟩ := ih hn.2
    have e : mkMigs sel (f :: fs) = mig f (sel f) :: mkMigs sel fs := by
      rw [mkMigs, if_neg hn.1]; cases sel f <;> rfl
    rw [e, queued, opens]
    rcases decision_spec env sel f with ⟨h1, h2⟩ | ⟨h1, _, _, h2⟩ | ⟨m, h1, h3, h2⟩
    · have : todo env sel (f :: fs) = todo env sel fs := by simp [todo, h2]
      rw [this]; simp only [h1]; exact ⟨ih1, ih2⟩
    · simp only [h1]; simp
    · have : todo env sel (f :: fs) = f :: todo env sel fs := by simp [todo, h2]
      rw [this]; simp only [h1, names_cons, h3]
      refine ⟨by simpa using ih1, fun h => by rw [ih2 h]⟩

theorem plain_reads (d : Dialect) (f : Str) (h : PlainName d f) :
    SqlSpec.readString d (escapeQuote '\'' f ++ ['\'']) = some (f, []) := by
  have e : doubleAll '\'' f = doubleQuotes f := by
    induction f with
    | nil => rfl
    | cons c f ih =>
      have : PlainName d f := by
        refine ⟨?_, fun hd => ?_⟩
        · rintro ⟨a, x, b, hb⟩
          exact h.1 ⟨c :: a, x, b, by simp [hb]⟩
        · have := h.2 hd; simp at this; exact this.2
      rw [doubleAll, doubleQuotes, ih this]
  rw [escapeQuote_eq_doubleAll _ _ h.1, e]
  by_cases hd : d = .mysql
  · subst hd; exact readMySQL_doubleQuotes f [] (by simp) (h.2 rfl)
  · have := readQuoted_doubleQuotes f [] (by simp)
    cases d <;> simp_all [SqlSpec.readString]

theorem inList_plain (d : Dialect) (files : List Str) (f : Str) (hf : f ∈ files) (h : PlainName d f) :
    inList d files f = true := by
  simp only [inList, List.any_eq_true]
  exact ⟨f, hf, by rw [plain_reads d f h]; simp⟩

theorem upToDate_sel (cfg : Cfg) (env : Env) (files : List Str) (h : History) (f : Str)
    (hf : f ∈ files) (hp : PlainName cfg.dialect f) :
    UpToDate env (selectRows cfg files h) f ↔ cfg.skipHistory = false ∧ UpToDate env h f := by
  unfold UpToDate selectRows
  rw [inList_plain _ _ _ hf hp]
  cases cfg.skipHistory <;> simp

theorem todo_pending (cfg : Cfg) (env : Env) (h : History) (names : List Str)
    (hp : ∀ f ∈ names, PlainName cfg.dialect f) :
    todo env (selectRows cfg (sortAndFilter names) h) (sortAndFilter names) = pending cfg env h names := by
  classical
  have e : todo env (selectRows cfg (sortAndFilter names) h) (sortAndFilter names) =
      (sortAndFilter names).filter fun f => cfg.skipHistory || decide (¬ UpToDate env h f) := by
    unfold todo
    apply List.filter_congr
    intro f hf
    rw [upToDate_sel cfg env _ h f hf (hp f (mem_sortAndFilter.1 hf).1)]
    cases cfg.skipHistory <;> simp
  rw [e, sortAndFilter_eq, List.filter_append, List.filter_filter, List.filter_filter, pending]
  congr 1
  · apply List.filter_congr
    intro f _
    rw [← isMigrationFile_iff, ← isRepeatable_iff]
    cases isMigrationFile f <;> cases isRepeatable f <;> simp
  · apply List.filter_congr
    intro f _
    rw [← isMigrationFile_iff, ← isRepeatable_iff]
    cases isMigrationFile f <;> cases isRepeatable f <;> simp

/-- how a run ends, given its segments -/
def Ends (o : Outcome) (segs : List Seg) : Prop :=
  (∃ a s, segs = a ++ [s] ∧ s.outcome = o) ∨
  ((∀ s ∈ segs, s.outcome = .ok) ∧ (o = .crashed ∨ ∃ e, o = .error none e false))

theorem migrate_trace (cfg : Cfg) (env : Env) (fs : List Str) (db : DB) :
    ∃ segs : List Seg,
      (migrate cfg env fs (start db)).2.log = segs.flatMap Seg.events ∧
      Trace cfg env db segs (migrate cfg env fs (start db)).2.db ∧
      (∃ q, (segs.map (·.files)).flatten <+: names q ∧
        segs.map (·.files) <+: (group cfg.dialect [] q).map names ∧
        q = queued env (mkMigs (selectRows cfg (sortAndFilter fs) db.hist) (sortAndFilter fs)) ∧
        ((migrate cfg env fs (start db)).1 = .ok → (segs.map (·.files)).flatten = names q ∧
          opens env (mkMigs (selectRows cfg (sortAndFilter fs) db.hist) (sortAndFilter fs)) = false ∧
          ∀ s ∈ segs, s.outcome = .ok)) ∧
      ((migrate cfg env fs (start db)).1 ≠ .ok → Ends (migrate cfg env fs (start db)).1 segs) := by
  unfold migrate
  dsimp only
  cases hres : env.res (start db).t with
  | fail => exact ⟨[], rfl, Trace.nil _, ⟨_, by simp, by simp, rfl, by simp⟩, fun _ => Or.inr ⟨by simp, by simp⟩⟩
  | lock => exact ⟨[], rfl, Trace.nil _, ⟨_, by simp, by simp, rfl, by simp⟩, fun _ => Or.inr ⟨by simp, by simp⟩⟩
  | crash => exact ⟨[], rfl, Trace.nil _, ⟨_, by simp, by simp, rfl, by simp⟩, fun _ => Or.inr ⟨by simp, by simp⟩⟩
  | crashAfter => exact ⟨[], rfl, Trace.nil _, ⟨_, by simp, by simp, rfl, by simp⟩, fun _ => Or.inr ⟨by simp, by simp⟩⟩
  | ok =>
    dsimp only
    split
    · rw [mainLoop_eq]
      have hfl : ∀ ms, ((group cfg.dialect [] ms).map names).flatten = names ms := by
        intro ms
        have := congrArg (List.map (·.filename)) (group_flatten cfg.dialect [] ms)
        rw [List.map_flatten] at this
        exact this
      have hdb : (start db).tick.db = db := rfl
      rw [hdb]
      generalize hms : mkMigs (selectRows cfg (sortAndFilter fs) db.hist) (sortAndFilter fs) = ms
      have hsh := group_shape cfg.dialect [] (queued env ms) (Or.inl rfl)
      have hqk : ∀ b ∈ group cfg.dialect [] (queued env ms), ∀ m ∈ b, QOK env m := by
        intro b hb m hm
        apply queued_ok env ms m
        have : m ∈ (group cfg.dialect [] (queued env ms)).flatten := List.mem_flatten.2 ⟨b, hb, hm⟩
        rw [group_flatten] at this
        simpa using this
      cases ho : opens env ms
      · simp only [Bool.false_eq_true, if_false]
        obtain ⟨segs, h1, h2, h3, h4, h5, h6⟩ := runBatches_spec cfg env _ (start db).tick rfl hsh hqk
        refine ⟨segs, by simpa [start, St.tick] using h1, h3, ⟨_, ?_, h4, rfl, ?_⟩, ?_⟩
        · rw [← hfl]; obtain ⟨t, ht⟩ := h4; rw [← ht]; simp
        · intro hok
          obtain ⟨k1, k2⟩ := h5 hok
          exact ⟨by rw [← hfl, k1], by simp_all, k2⟩
        · intro hok; exact Or.inl (h6 hok)
      · simp only [if_true]
        obtain ⟨segs, h1, h2, h3, h4, h5, h6⟩ := runBatches_spec cfg env
          (group cfg.dialect [] (queued env ms)).dropLast (start db).tick rfl
          (fun b hb => hsh b (List.dropLast_subset _ hb)) (fun b hb => hqk b (List.dropLast_subset _ hb))
        generalize runBatches cfg env (group cfg.dialect [] (queued env ms)).dropLast (start db).tick = x
          at h1 h2 h3 h4 h5 h6 ⊢
        obtain ⟨o, s⟩ := x
        have e2 : (openErr (o, s)).2 = s := by cases o <;> rfl
        have e1 : (openErr (o, s)).1 ≠ .ok := by cases o <;> simp [openErr]
        rw [e2]
        refine ⟨segs, by simpa [start, St.tick] using h1, h3, ⟨_, ?_, h4.trans ?_, rfl, fun h => absurd h e1⟩, ?_⟩
        · rw [← hfl]
          refine List.IsPrefix.trans (l₂ := ((group cfg.dialect [] (queued env ms)).dropLast.map names).flatten) ?_ ?_
          · obtain ⟨t, ht⟩ := h4; rw [← ht]; simp
          · obtain ⟨t, ht⟩ := List.dropLast_prefix (group cfg.dialect [] (queued env ms))
            refine ⟨(t.map names).flatten, ?_⟩
            rw [← List.flatten_append, ← List.map_append, ht]
        · obtain ⟨t, ht⟩ := List.dropLast_prefix (group cfg.dialect [] (queued env ms))
          refine ⟨t.map names, ?_⟩
          rw [← List.map_append, ht]
        · intro _
          by_cases hok : o = .ok
          · subst hok
            exact Or.inr ⟨(h5 rfl).2, Or.inr ⟨.fail, rfl⟩⟩
          · have : openErr (o, s) = (o, s) := by cases o <;> first | rfl | exact absurd rfl hok
            rw [this]
            exact Or.inl (h6 hok)
    · exact ⟨[], rfl, Trace.nil _, ⟨_, by simp, by simp, rfl, by simp⟩, fun _ => Or.inr ⟨by simp, by simp⟩⟩

/-- a batch ends only where it has to -/
def Boundary (d : Dialect) (x y : List Mig) : Prop :=
  ∃ m m' r r', x = m :: r ∧ y = m' :: r' ∧ (d = .mysql ∨ isTxFile m.filename = true ∨
    isTxoffFile m.filename = true ∨ isTxFile m'.filename = true ∨ isTxoffFile m'.filename = true)

theorem group_head (d : Dialect) (m : Mig) (q ms : List Mig) :
    ∃ r bs, group d (m :: q) ms = (m :: r) :: bs := by
  induction ms generalizing q with
  | nil => exact ⟨q, [], by simp [group]⟩
  | cons m' ms ih =>
    rw [group]
    split
    · exact ⟨q, _, rfl⟩
    · exact ih (q ++ [m'])

theorem group_boundary (d : Dialect) (q ms : List Mig) (a b : List (List Mig)) (x y : List Mig)
    (h : group d q ms = a ++ x :: y :: b) : Boundary d x y := by
  induction ms generalizing q a with
  | nil =>
    rw [group] at h
    split at h
    · simp at h
    · have := congrArg List.length h; simp at this; omega
  | cons m ms ih =>
    rw [group] at h
    split at h
    · rename_i hf
      cases a with
      | nil =>
        simp at h
        obtain ⟨rfl, h⟩ := h
        obtain ⟨r, bs, hg⟩ := group_head d m [] ms
        rw [hg] at h
        simp at h
        match q, hf with
        | m0 :: q, hf =>
          refine ⟨m0, m, q, r, rfl, h.1.symm, ?_⟩
          simpa [flushBefore, or_assoc] using hf
      | cons a0 a =>
        simp at h
        exact ih _ _ h.2
    · exact ih _ _ h

end Sqddl.Migrate
