import Verif.Props.History

/-!
# C13, C14: ls; C58: an interrupted read of the history
-/

namespace Sqddl.Migrate
open HistorySpec MigrateSpec FileSpec

/-! ## C14 -/

theorem mkMigs_map {sel : History} {fs : List Str} (hn : fs.Nodup) :
    mkMigs sel fs = fs.map fun f => mig f (sel f) := by
  induction fs with
  | nil => rfl
  | cons f fs ih =>
    simp at hn
    rw [mkMigs, if_neg hn.1, ih hn.2, List.map_cons]
    cases sel f <;> rfl

theorem lsStatus_iff (env : Env) (h : History) (f : Str) (s : Status) :
    lsStatus env (mig f (h f)) = some s ↔ HasStatus env h f s := by
  have hrep := isRepeatable_iff f
  unfold lsStatus
  cases hr : h f with
  | none => cases s <;> simp [mig, HasStatus, hr]
  | some r =>
    obtain ⟨k, st, b⟩ := r
    cases st with
    | none =>
      cases s <;> simp [mig, HasStatus, hr]
    | some n =>
      cases b with
      | false => cases s <;> simp [mig, HasStatus, hr]
      | true =>
        cases hb : isRepeatable f with
        | false =>
          rw [hb] at hrep
          have hrep : ¬ Repeatable f := by rw [← hrep]; simp
          cases s <;> simp [mig, HasStatus, hr, hb, hrep]
        | true =>
          have hrep : Repeatable f := hrep.1 hb
          cases hc : env.files f with
          | none => cases s <;> simp [mig, HasStatus, hr, hb, hrep, hc]
          | some c =>
            by_cases he : env.sha (crlfToLf c) = k <;>
              cases s <;> simp [mig, HasStatus, hr, hb, hrep, hc, he]

/-- the line of a migration -/
def lineOf (env : Env) (m : Mig) : Option Line := (lsStatus env m).map fun s => ⟨s, m.filename, m.startedAt⟩

theorem lsLoop_eq (env : Env) (flags : LsFlags) (ms : List Mig) :
    ((lsLoop env flags ms).2 = true ↔ ∀ m ∈ ms, lsStatus env m ≠ none) ∧
    ((lsLoop env flags ms).2 = true →
      (lsLoop env flags ms).1 = (ms.filterMap (lineOf env)).filter fun l => flags.shows l.status) := by
  induction ms with
  | nil => simp [lsLoop]
  | cons m ms ih =>
    rw [lsLoop]
    cases hs : lsStatus env m with
    | none => simp [hs]
    | some s =>
      have hl : lineOf env m = some ⟨s, m.filename, m.startedAt⟩ := by simp [lineOf, hs]
      dsimp only
      by_cases hf : flags.shows s = true
      · rw [if_pos hf]
        refine ⟨by simp [hs, ih.1], fun h => ?_⟩
        rw [List.filterMap_cons_some hl, List.filter_cons_of_pos (by simpa using hf), ih.2 h]
      · rw [if_neg hf]
        refine ⟨by simp [hs, ih.1], fun h => ?_⟩
        rw [List.filterMap_cons_some hl, List.filter_cons_of_neg (by simpa using hf), ih.2 h]

theorem selected_eq (names : List Str) : selected names = sortAndFilter names := by
  classical
  rw [sortAndFilter_eq, selected]
  congr 1 <;>
  · apply List.filter_congr
    intro f _
    rw [← isMigrationFile_iff, ← isRepeatable_iff]
    cases isMigrationFile f <;> cases isRepeatable f <;> simp

theorem inList_iff {d : Dialect} {files : List Str} (hp : ∀ f ∈ files, PlainName d f) (f : Str) :
    inList d files f = decide (f ∈ files) := by
  rw [Bool.eq_iff_iff, decide_eq_true_eq]
  constructor
  · intro h
    simp only [inList, List.any_eq_true, beq_iff_eq] at h
    obtain ⟨g, hg, e⟩ := h
    rw [plain_reads d g (hp g hg)] at e
    simp at e; exact e ▸ hg
  · intro h; exact inList_plain d files f h (hp f h)

/-- The history that `ls` sees. -/
def seenRows (tableExists : Bool) (t : Rows) : Rows := if tableExists then t else []

/-- What `ls` prints for the files. -/
theorem lsFiles_eq (env : Env) (h sel : History) (fs : List Str) (hn : fs.Nodup) (hs : ∀ f ∈ fs, sel f = h f)
    (flags : LsFlags) (hok : (lsLoop env flags (mkMigs sel fs)).2 = true) :
    ∃ st : Str → Status, (∀ f ∈ fs, HasStatus env h f (st f)) ∧
      (lsLoop env flags (mkMigs sel fs)).1 =
        (fs.map fun f => ⟨st f, f, (h f).bind (·.startedAt)⟩).filter fun l => flags.shows l.status := by
  have e : mkMigs sel fs = fs.map fun f => mig f (h f) := by
    rw [mkMigs_map hn]
    apply List.map_congr_left
    intro f hf; rw [hs f hf]
  rw [e] at hok ⊢
  have hall := (lsLoop_eq env flags _).1.1 hok
  refine ⟨fun f => (lsStatus env (mig f (h f))).getD .pending, ?_, ?_⟩
  · intro f hf
    rw [← lsStatus_iff]
    have := hall (mig f (h f)) (List.mem_map_of_mem hf)
    cases hx : lsStatus env (mig f (h f)) with
    | none => exact absurd hx this
    | some s => simp only [hx, Option.getD_some]
  · rw [(lsLoop_eq env flags _).2 hok]
    congr 1
    rw [List.filterMap_map, ← List.filterMap_eq_map]
    have congr : ∀ (f g : Str → Option Line) (l : List Str), (∀ x ∈ l, f x = g x) → l.filterMap f = l.filterMap g := by
      intro f g l h
      induction l with
      | nil => rfl
      | cons x l ih => simp only [List.filterMap_cons, h x (by simp), ih fun y hy => h y (by simp [hy])]
    apply congr
    intro f hf
    have := hall (mig f (h f)) (List.mem_map_of_mem hf)
    cases hx : lsStatus env (mig f (h f)) with
    | none => exact absurd hx this
    | some s =>
      simp only [Function.comp, lineOf, hx, Option.map_some, Option.getD_some, mig_filename]
      cases h f <;> rfl

theorem ls_output (d : Dialect) (env : Env) (flags : LsFlags) (names : List Str) (ex : Bool) (t : Rows)
    (c : Collation) (hn : names.Nodup) (hp : ∀ f ∈ names, PlainName d f)
    (hok : (ls d env flags names ex t c).2 = .ok) :
    ∃ st : Str → Status, (∀ f ∈ selected names, HasStatus env (seenRows ex t).hist f (st f)) ∧
      (ls d env flags names ex t c).1 =
        ((selected names).map fun f => ⟨st f, f, ((seenRows ex t).hist f).bind (·.startedAt)⟩).filter
          (fun l => flags.norm.shows l.status) ++
        (if flags.norm.missing then (missingNames d c (selected names) (seenRows ex t)).map
          (fun f => ⟨.missing, f, none⟩) else []) := by
  have hp2 : ∀ f ∈ sortAndFilter names, PlainName d f := fun f hf => hp f (mem_sortAndFilter.1 hf).1
  rw [selected_eq]
  unfold ls at hok ⊢
  dsimp only at hok ⊢
  cases h0 : env.res 0 <;> simp only [h0] at hok ⊢
  any_goals (cases hok; done)
  cases ex
  · simp only [Bool.not_false, if_true] at hok ⊢
    have hb : (lsLoop env flags.norm (mkMigs (fun _ => none) (sortAndFilter names))).2 = true := by
      cases hb : (lsLoop env flags.norm (mkMigs (fun _ => none) (sortAndFilter names))).2
      · simp [hb] at hok
      · rfl
    obtain ⟨st, h1, h2⟩ := lsFiles_eq env (seenRows false t).hist (fun _ => none) _ (sortAndFilter_nodup hn)
      (fun f _ => rfl) flags.norm hb
    refine ⟨st, h1, ?_⟩
    rw [h2]
    simp [missingNames, seenRows]
  · simp only [Bool.not_true] at hok ⊢
    cases h1 : env.res 1 <;> simp only [h1] at hok ⊢
    any_goals (cases hok; done)
    split at hok
    · rename_i hx; simp at hx
    · rename_i hx; simp only [if_neg hx]
      split at hok
      · exact absurd hok (by decide)
      · rename_i hi; simp only [if_neg hi]
        have hsel : ∀ f ∈ sortAndFilter names,
            (fun f => if inList d (sortAndFilter names) f = true then t.hist f else none) f =
              (seenRows true t).hist f := by
          intro f hf
          simp only [inList_plain d _ f hf (hp2 f hf), if_true, seenRows]
        generalize (fun f => if inList d (sortAndFilter names) f = true then t.hist f else none) = sel at hok hsel ⊢
        have hb : (lsLoop env flags.norm (mkMigs sel (sortAndFilter names))).2 = true := by
          cases hb : (lsLoop env flags.norm (mkMigs sel (sortAndFilter names))).2
          · simp [hb] at hok
          · rfl
        obtain ⟨st, k1, k2⟩ := lsFiles_eq env _ sel _ (sortAndFilter_nodup hn) hsel flags.norm hb
        refine ⟨st, k1, ?_⟩
        simp only [hb, Bool.not_true] at hok ⊢
        simp only [Bool.false_eq_true, if_false] at hok ⊢
        rw [k2]
        cases hm : flags.norm.missing
        · simp
        · simp only [hm, Bool.not_true, Bool.false_eq_true, if_false, if_true] at hok ⊢
          cases h2 : env.res 2 <;> simp only [h2] at hok ⊢
          any_goals (cases hok; done)
          simp [seenRows]

theorem norm_all {flags : LsFlags} (h : flags.all = true) (s : Status) : flags.norm.shows s = true := by
  unfold LsFlags.norm; rw [if_pos h]; cases s <;> rfl

theorem norm_missing {flags : LsFlags} : flags.norm.shows .missing = flags.norm.missing := rfl

/-- C14.  With all statuses included, `ls` prints every selected file once, in order, with the status
it has, and then the rows of the history that have no file, each once, sorted by name with the
repeatable ones last. -/
theorem ls_classifies (d : Dialect) (env : Env) (flags : LsFlags) (names : List Str) (ex : Bool) (t : Rows)
    (c : Collation) (hn : names.Nodup) (hp : ∀ f ∈ names, PlainName d f)
    (hall : flags.all = true) (hok : (ls d env flags names ex t c).2 = .ok)
    (htrans : ∀ a b x, c.le a b = true → c.le b x = true → c.le a x = true)
    (htot : ∀ a b, c.le a b = true ∨ c.le b a = true) :
    ∃ main miss : List Line,
      (ls d env flags names ex t c).1 = main ++ miss ∧
      main.map (·.name) = selected names ∧
      (∀ l ∈ main, HasStatus env (seenRows ex t).hist l.name l.status ∧
        l.startedAt = ((seenRows ex t).hist l.name).bind (·.startedAt)) ∧
      (∀ l ∈ miss, l.status = .missing) ∧
      (miss.map (·.name)).Perm (((seenRows ex t).map (·.1)).filter fun f => decide (f ∉ selected names)) ∧
      (miss.map (·.name)).Pairwise (fun a b => ¬ (c.like a = true ∧ c.like b = false) ∧
        (c.like a = c.like b → c.le a b = true)) := by
  obtain ⟨st, h1, h2⟩ := ls_output d env flags names ex t c hn hp hok
  have hm : flags.norm.missing = true := by rw [← norm_missing]; exact norm_all hall _
  have hp2 : ∀ f ∈ selected names, PlainName d f := by
    rw [selected_eq]; exact fun f hf => hp f (mem_sortAndFilter.1 hf).1
  refine ⟨_, _, h2, ?_, ?_, ?_, ?_, ?_⟩
  · rw [List.filter_eq_self.2 (fun l _ => norm_all hall _), List.map_map]
    exact List.map_id' _
  · intro l hl
    rw [List.mem_filter, List.mem_map] at hl
    obtain ⟨⟨f, hf, rfl⟩, _⟩ := hl
    exact ⟨h1 f hf, rfl⟩
  · intro l hl
    simp only [hm, if_true, List.mem_map] at hl
    obtain ⟨f, _, rfl⟩ := hl; rfl
  · simp only [hm, if_true, List.map_map]
    rw [show (fun x : Line => x.name) ∘ (fun f => (⟨.missing, f, none⟩ : Line)) = id from rfl, List.map_id]
    unfold missingNames
    refine (List.mergeSort_perm _ _).trans ?_
    rw [List.filter_congr (q := fun f => decide (f ∉ selected names))]
    · intro f _
      rw [inList_iff hp2]; simp
  · simp only [hm, if_true, List.map_map]
    rw [show (fun x : Line => x.name) ∘ (fun f => (⟨.missing, f, none⟩ : Line)) = id from rfl, List.map_id]
    unfold missingNames
    have := List.pairwise_mergeSort (le := c.before) (fun a b x => ?_) (fun a b => ?_)
      (List.filter (fun f => !inList d (selected names) f) ((seenRows ex t).map (·.1)))
    · refine this.imp ?_
      intro a b hab
      unfold Collation.before at hab
      cases ha : c.like a <;> cases hb : c.like b <;> simp_all
    · unfold Collation.before
      have := htrans a b x
      cases c.like a <;> cases c.like b <;> cases c.like x <;> simp_all
    · unfold Collation.before
      have := htot a b
      cases c.like a <;> cases c.like b <;> simp_all

/-- C14.  The flags only hide lines: what `ls` prints is what it prints with all statuses included,
without the lines of the statuses that are not asked for. -/
theorem ls_flags_hide (d : Dialect) (env : Env) (flags all : LsFlags) (names : List Str) (ex : Bool) (t : Rows)
    (c : Collation) (hall : all.all = true) (hok : (ls d env all names ex t c).2 = .ok) :
    ls d env flags names ex t c =
      ((ls d env all names ex t c).1.filter fun l => flags.norm.shows l.status, .ok) := by
  have key : ∀ ms, (lsLoop env all.norm ms).2 = true →
      (lsLoop env flags.norm ms).2 = true ∧
      (lsLoop env flags.norm ms).1 = (lsLoop env all.norm ms).1.filter fun l => flags.norm.shows l.status := by
    intro ms h
    have h1 := (lsLoop_eq env flags.norm ms).1.2 ((lsLoop_eq env all.norm ms).1.1 h)
    refine ⟨h1, ?_⟩
    rw [(lsLoop_eq env flags.norm ms).2 h1, (lsLoop_eq env all.norm ms).2 h, List.filter_filter]
    congr 1
    funext l
    rw [norm_all hall]; simp
  have hm : all.norm.missing = true := by rw [← norm_missing]; exact norm_all hall _
  unfold ls at hok ⊢
  dsimp only at hok ⊢
  cases h0 : env.res 0 <;> simp only [h0] at hok ⊢
  any_goals (cases hok; done)
  cases ex
  · simp only [Bool.not_false, if_true] at hok ⊢
    have hb : (lsLoop env all.norm (mkMigs (fun _ => none) (sortAndFilter names))).2 = true := by
      cases hb : (lsLoop env all.norm (mkMigs (fun _ => none) (sortAndFilter names))).2
      · simp [hb] at hok
      · rfl
    rw [(key _ hb).1, (key _ hb).2]; rfl
  · simp only [Bool.not_true] at hok ⊢
    cases h1 : env.res 1 <;> simp only [h1] at hok ⊢
    any_goals (cases hok; done)
    split at hok
    · rename_i hx; simp at hx
    · rename_i hx; simp only [if_neg hx]
      split at hok
      · exact absurd hok (by decide)
      · rename_i hi; simp only [if_neg hi]
        generalize (fun f => if inList d (sortAndFilter names) f = true then t.hist f else none) = sel at hok ⊢
        have hb : (lsLoop env all.norm (mkMigs sel (sortAndFilter names))).2 = true := by
          cases hb : (lsLoop env all.norm (mkMigs sel (sortAndFilter names))).2
          · simp [hb] at hok
          · rfl
        simp only [(key _ hb).1, (key _ hb).2, hb, hm, Bool.not_true, Bool.false_eq_true, if_false] at hok ⊢
        cases h2 : env.res 2 <;> simp only [h2] at hok ⊢
        any_goals (cases hok; done)
        rw [List.filter_append]
        have hX : ∀ l ∈ (missingNames d c (sortAndFilter names) t).map
            (fun f => (⟨.missing, f, none⟩ : Line)), l.status = .missing := by
          intro l hl
          rw [List.mem_map] at hl
          obtain ⟨f, _, rfl⟩ := hl; rfl
        generalize (missingNames d c (sortAndFilter names) t).map (fun f => (⟨.missing, f, none⟩ : Line)) = X at hX ⊢
        cases hf : flags.norm.missing
        · have : X.filter (fun l => flags.norm.shows l.status) = [] :=
            List.filter_eq_nil_iff.2 fun l hl => by rw [hX l hl, norm_missing, hf]; simp
          simp [this]
        · have : X.filter (fun l => flags.norm.shows l.status) = X :=
            List.filter_eq_self.2 fun l hl => by rw [hX l hl, norm_missing, hf]
          simp [this]

/-- Sample table: one row with a file, one without. -/
def rows2 : Rows := [(b!"gone.sql", ⟨[], some 5, true⟩), (b!"02.sql", ⟨[], some 2, false⟩), (b!"03.sql", ⟨[], some 3, true⟩)]

/-- Sample collation. -/
def bytes : Collation := ⟨fun f => Go.hasPrefix f b!"repeatable/", fun a b => decide (a ≤ b)⟩

example : ls .postgres (envOk []) ⟨false, false, false, false, true⟩ [b!"02.sql", b!"03.sql", b!"04.sql"] true rows2 bytes =
      ([⟨.failed, b!"02.sql", some 2⟩, ⟨.applied, b!"03.sql", some 3⟩, ⟨.pending, b!"04.sql", none⟩,
        ⟨.missing, b!"gone.sql", none⟩], .ok) ∧
    ls .postgres (envOk []) ⟨false, false, false, false, false⟩ [b!"02.sql", b!"03.sql", b!"04.sql"] true rows2 bytes =
      ([⟨.failed, b!"02.sql", some 2⟩, ⟨.pending, b!"04.sql", none⟩], .ok) := by
  decide +kernel

/-! ## C13 -/

theorem status_pending_iff {env : Env} {h : History} (hst : Started h) {f : Str} {s : Status}
    (hs : HasStatus env h f s) : (s = .pending ∨ s = .failed) ↔ ¬ UpToDate env h f := by
  unfold UpToDate
  cases s with
  | pending =>
    simp only [true_or, true_iff]
    rintro ⟨r, h1, h2, h3⟩
    rcases hs with hs | ⟨r', hs, hn⟩ | ⟨r', c, hs, _, hr, hc, hne⟩
    · rw [h1] at hs; simp at hs
    · rw [h1] at hs; simp at hs; subst hs; exact hst f r h1 h2 hn
    · rw [h1] at hs; simp at hs; subst hs
      obtain ⟨c', h4, h5⟩ := h3 hr
      rw [hc] at h4; simp at h4; subst h4
      exact hne h5.symm
  | failed =>
    simp only [or_true, true_iff]
    rintro ⟨r, h1, h2, h3⟩
    obtain ⟨r', hs, _, hf⟩ := hs
    rw [h1] at hs; simp at hs; subst hs
    rw [h2] at hf; simp at hf
  | applied =>
    simp only [reduceCtorEq, or_self, false_iff, Classical.not_not]
    obtain ⟨r, h1, _, h2, h3⟩ := hs
    refine ⟨r, h1, h2, fun hr => ?_⟩
    obtain ⟨c, h4, h5⟩ := h3 hr
    exact ⟨c, h4, h5.symm⟩
  | missing => exact absurd hs id

theorem pending_eq (cfg : Cfg) (env : Env) (h : History) (names : List Str) (hk : cfg.skipHistory = false) :
    pending cfg env h names = (selected names).filter (fun f => @decide (¬ UpToDate env h f) (Classical.propDecidable _)) := by
  classical
  rw [pending, selected, List.filter_append, List.filter_filter, List.filter_filter]
  congr 1 <;>
  · apply List.filter_congr
    intro f _
    simp [hk, Bool.and_comm]

/-- C13.  `ls` without flags lists exactly the files that `migrate` has to execute, in the order in
which it executes them.  `Started` holds for every history written by this program, see
`migrate_started` and `touch_started`. -/
theorem ls_eq_pending (cfg : Cfg) (env : Env) (flags : LsFlags) (names : List Str) (ex : Bool) (t : Rows) (c : Collation)
    (hk : cfg.skipHistory = false) (hn : names.Nodup) (hp : ∀ f ∈ names, PlainName cfg.dialect f)
    (hst : Started (seenRows ex t).hist)
    (hflags : flags.pending = false ∧ flags.applied = false ∧ flags.failed = false ∧ flags.missing = false ∧
      flags.all = false)
    (hok : (ls cfg.dialect env flags names ex t c).2 = .ok) :
    (ls cfg.dialect env flags names ex t c).1.map (·.name) = pending cfg env (seenRows ex t).hist names := by
  classical
  obtain ⟨st, h1, h2⟩ := ls_output cfg.dialect env flags names ex t c hn hp hok
  have e : flags.norm = ⟨true, false, true, false, false⟩ := by
    obtain ⟨a, b, x, y, z⟩ := flags
    obtain ⟨rfl, rfl, rfl, rfl, rfl⟩ := hflags
    rfl
  rw [h2, e, pending_eq cfg env _ names hk]
  simp only [Bool.false_eq_true, if_false, List.append_nil, List.filter_map, List.map_map]
  rw [show (fun x : Line => x.name) ∘ (fun f => (⟨st f, f, ((seenRows ex t).hist f).bind (·.startedAt)⟩ : Line)) = id
    from rfl, List.map_id]
  apply List.filter_congr
  intro f hf
  have := status_pending_iff hst (h1 f hf)
  rw [Bool.eq_iff_iff]
  simp only [Function.comp, decide_eq_true_eq, ← this]
  cases st f <;> simp [LsFlags.shows]

/-- C13.  A file that `ls` shows as applied is one that `migrate` skips, and one that it shows as
pending or failed is one that a successful `migrate` executes. -/
theorem ls_then_migrate (cfg : Cfg) (env env2 : Env) (flags : LsFlags) (names : List Str) (ex : Bool) (t : Rows)
    (c : Collation) (db : DB) (hdb : db.hist = (seenRows ex t).hist)
    (hk : cfg.skipHistory = false) (hn : names.Nodup) (hp : ∀ f ∈ names, PlainName cfg.dialect f)
    (hst : Started (seenRows ex t).hist) (hsame : SameFiles env env2)
    (hok : (ls cfg.dialect env flags names ex t c).2 = .ok)
    (l : Line) (hl : l ∈ (ls cfg.dialect env flags names ex t c).1) :
    (l.status = .applied → l.name ∉ execs (migrate cfg env2 names (start db)).2.log) ∧
    (l.status = .pending ∨ l.status = .failed → (migrate cfg env2 names (start db)).1 = .ok →
      l.name ∈ execs (migrate cfg env2 names (start db)).2.log) := by
  obtain ⟨st, h1, h2⟩ := ls_output cfg.dialect env flags names ex t c hn hp hok
  rw [h2, List.mem_append] at hl
  rcases hl with hl | hl
  · rw [List.mem_filter, List.mem_map] at hl
    obtain ⟨⟨f, hf, rfl⟩, _⟩ := hl
    have hs := status_pending_iff hst (h1 f hf)
    rw [← hdb, ← hsame.uptodate] at hs
    rw [selected_eq, mem_sortAndFilter] at hf
    constructor
    · intro h
      dsimp only at h ⊢
      obtain ⟨segs, e1, e2, e3, _⟩ := migrate_runs_pending cfg env2 names db hn hp
      rw [e1, execs_flatMap]
      intro hx
      rw [List.mem_flatMap] at hx
      obtain ⟨s, hsg, hx⟩ := hx
      obtain ⟨a, b, hg⟩ := Trace.good e2 s hsg
      rw [hg.execs_eq] at hx
      obtain ⟨at', ha, hx⟩ := List.mem_flatten.1 hx
      have : f ∈ pending cfg env2 db.hist names :=
        e3.subset (List.mem_flatten.2 ⟨s.files, List.mem_map_of_mem hsg, (hg.attempts_prefix at' ha).subset hx⟩)
      rw [mem_pending] at this
      rcases this.2.2 with h' | h'
      · simp [hk] at h'
      · have := hs.2 h'
        rw [h] at this
        simp at this
    · intro h hok2
      rw [migrate_executes_iff cfg env2 names db hn hp hk hok2 f hf.1 hf.2]
      exact hs.1 h
  · split at hl
    · rw [List.mem_map] at hl
      obtain ⟨f, _, rfl⟩ := hl
      simp
    · simp at hl

/-- A row made by other means, with success but without start time, makes the two disagree: `ls` shows
the file as pending, and `migrate` skips it. -/
theorem ls_null_started_refuted :
    (ls .sqlite (envOk []) ⟨false, false, false, false, false⟩ [b!"02.sql"] true
      [(b!"02.sql", ⟨[], none, true⟩)] bytes).1 = [⟨.pending, b!"02.sql", none⟩] ∧
    (migrate (cfg0 .sqlite) (envOk []) [b!"02.sql"]
      (start ⟨[], Rows.hist [(b!"02.sql", ⟨[], none, true⟩)]⟩)).2.log = [] := by
  decide +kernel

/-! ### the invariant -/

theorem Started.upsert {h : History} (hs : Started h) (f : Str) (r : Row)
    (hr : r.success = true → r.startedAt ≠ none) : Started (h.upsert f r) := by
  intro g r' hg
  unfold History.upsert at hg
  split at hg
  · simp at hg; subst hg; exact hr
  · exact hs g r' hg

/-- the invariant for the state of a run -/
def StartedSt (st : St) : Prop := Started st.db.hist ∧ ∀ d, st.tx = some d → Started d.hist

theorem StartedSt.tick {st : St} (h : StartedSt st) : StartedSt st.tick := h
theorem StartedSt.logEv {st : St} (h : StartedSt st) (e : Ev) : StartedSt (st.logEv e) := h
theorem StartedSt.rollback {st : St} (h : StartedSt st) : StartedSt st.rollback := ⟨h.1, by simp [St.rollback]⟩
theorem StartedSt.commit {st : St} (h : StartedSt st) : StartedSt st.commit := by
  unfold St.commit
  split
  · rename_i d hd; exact ⟨h.2 d hd, by simp⟩
  · exact h
theorem StartedSt.apply {st : St} (h : StartedSt st) {f : DB → DB} (hf : ∀ d, Started d.hist → Started (f d).hist) :
    StartedSt (st.apply f) := by
  unfold St.apply
  split
  · rename_i d hd
    refine ⟨h.1, fun d' hd' => ?_⟩
    simp at hd'; subst hd'; exact hf d (h.2 d hd)
  · rename_i hd
    refine ⟨hf _ h.1, fun d' hd' => ?_⟩
    simp at hd'; rw [hd] at hd'; simp at hd'

theorem StartedSt.addEff {st : St} (h : StartedSt st) (e : Eff) : StartedSt (st.apply (·.addEff e)) :=
  h.apply fun _ hd => hd

theorem upsertFailed_started (ms : List Mig) (d : DB) (h : Started d.hist) : Started (upsertFailed ms d).hist := by
  unfold upsertFailed
  induction ms generalizing d with
  | nil => exact h
  | cons m ms ih =>
    rw [List.foldl_cons]
    exact ih _ (Started.upsert h _ _ (by simp))

theorem runLoop_started (cfg : Cfg) (env : Env) (acc ms : List Mig) (st : St) (h : StartedSt st) :
    StartedSt (runLoop cfg env acc ms st).2 := by
  induction ms generalizing acc st with
  | nil => exact h
  | cons m ms ih =>
    rw [runLoop]
    split
    · exact h.rollback
    · dsimp only
      split
      · exact (((h.logEv _).tick).addEff _).rollback
      · exact (((h.logEv _).tick).addEff _).rollback
      · exact (((h.logEv _).tick).addEff _).rollback
      · exact (((h.logEv _).tick).addEff _).rollback
      · have h' := ((h.logEv (.exec m.filename)).tick).addEff (.script m.filename)
        split
        · exact ih _ _ h'
        · split
          · exact h'.tick.rollback
          · exact h'.tick.rollback
          · exact h'.tick.rollback
          · exact ((h'.tick).apply fun d hd => Started.upsert hd _ _ (by simp)).rollback
          · exact ih _ _ ((h'.tick).apply fun d hd => Started.upsert hd _ _ (by simp))

theorem run_started (cfg : Cfg) (env : Env) (q : List Mig) (st : St) (h : StartedSt st) :
    StartedSt (run cfg env q st).2 := by
  rw [run]
  split
  · dsimp only
    split
    · exact h.tick
    · exact h.tick
    · exact h.tick
    · exact h.tick
    · have h0 : StartedSt { st.tick with tx := some st.tick.db } :=
        ⟨h.1, fun d hd => by simp at hd; subst hd; exact h.1⟩
      have := runLoop_started cfg env [] q _ h0
      generalize runLoop cfg env [] q { st.tick with tx := some st.tick.db } = x at this ⊢
      obtain ⟨r, st'⟩ := x
      cases r with
      | done ms =>
        dsimp only
        split
        · exact this.tick.commit
        · exact this.tick.rollback
        · exact this.tick.rollback
        · exact this.tick.rollback
        · exact this.tick.commit
      | _ => exact this
  · exact runLoop_started cfg env [] q st h

theorem recordFailed_started (cfg : Cfg) (env : Env) (ms : Option (List Mig)) (e : Err) (uf : Bool) (st : St)
    (h : StartedSt st) : StartedSt (recordFailed cfg env ms e uf st).2 := by
  unfold recordFailed
  split
  · exact h
  · dsimp only
    split
    · exact h
    · split <;> exact h.tick.apply fun d hd => upsertFailed_started _ d hd

theorem undo_started (env : Env) (m : Mig) (st : St) (h : StartedSt st) : StartedSt (undo env m st).2 := by
  unfold undo
  split
  · exact h
  · dsimp only
    split
    · exact ((h.logEv _).tick).addEff _
    · exact (h.logEv _).tick
    · exact (h.logEv _).tick
    · exact (h.logEv _).tick
    · exact ((h.logEv _).tick).addEff _

theorem giveUp_started (cfg : Cfg) (env : Env) (b : Bool) (q : List Mig) (ms : Option (List Mig)) (e : Err) (st : St)
    (h : StartedSt st) : StartedSt (giveUp cfg env b q ms e st).2 := by
  unfold giveUp
  split
  · exact recordFailed_started _ _ _ _ _ _ h
  · split
    · exact recordFailed_started _ _ _ _ _ _ h
    · rename_i m _
      have := undo_started env m st h
      generalize undo env m st = x at this ⊢
      obtain ⟨o, st'⟩ := x
      cases o with
      | none => exact this
      | some uf => exact recordFailed_started _ _ _ _ _ _ this

theorem retryLoop_started (cfg : Cfg) (env : Env) (q : List Mig) (left attempts : Nat) (st : St) (h : StartedSt st) :
    StartedSt (retryLoop cfg env q left attempts st).2 := by
  induction left generalizing attempts st with
  | zero =>
    rw [retryLoop.eq_def]
    have := run_started cfg env q st h
    cases hx : run cfg env q st with
    | mk r st' =>
      rw [hx] at this
      simp only [hx]
      dsimp only at this
      cases r with
      | done => exact this
      | crashed => exact this
      | beginFailed e =>
        dsimp only
        split
        · exact this
        · exact giveUp_started _ _ _ _ _ _ _ this
      | stopped ms e =>
        dsimp only
        split
        · exact this
        · exact giveUp_started _ _ _ _ _ _ _ this
  | succ left ih =>
    rw [retryLoop.eq_def]
    have := run_started cfg env q st h
    cases hx : run cfg env q st with
    | mk r st' =>
      rw [hx] at this
      simp only [hx]
      dsimp only at this
      cases r with
      | done => exact this
      | crashed => exact this
      | beginFailed e =>
        dsimp only
        split
        · exact this
        · exact giveUp_started _ _ _ _ _ _ _ this
      | stopped ms e =>
        dsimp only
        split
        · split
          · exact this
          · exact ih _ _ this
        · exact giveUp_started _ _ _ _ _ _ _ this

theorem runWithRetry_started (cfg : Cfg) (env : Env) (q : List Mig) (st : St) (h : StartedSt st) :
    StartedSt (runWithRetry cfg env q st).2 := by
  unfold runWithRetry
  dsimp only
  split
  · exact h.logEv _
  · exact retryLoop_started _ _ _ _ _ _ (h.logEv _)

theorem mainLoop_started (cfg : Cfg) (env : Env) (ms q : List Mig) (st : St) (h : StartedSt st) :
    StartedSt (mainLoop cfg env ms q st).2 := by
  induction ms generalizing q st with
  | nil =>
    rw [mainLoop]
    split
    · exact h
    · exact runWithRetry_started cfg env q st h
  | cons m ms ih =>
    rw [mainLoop]
    split
    · exact ih _ _ h
    · exact h
    · split
      · have := runWithRetry_started cfg env q st h
        cases hx : runWithRetry cfg env q st with
        | mk r st' =>
          rw [hx] at this
          cases r with
          | ok => exact ih _ _ this
          | _ => exact this
      · exact ih _ _ h

/-- C13.  `migrate` keeps the invariant that successful rows have a start time. -/
theorem migrate_started (cfg : Cfg) (env : Env) (names : List Str) (db : DB) (h : Started db.hist) :
    Started (migrate cfg env names (start db)).2.db.hist := by
  have h0 : StartedSt (start db) := ⟨h, by simp [start]⟩
  have : StartedSt (migrate cfg env names (start db)).2 := by
    unfold migrate
    dsimp only
    split
    · exact h0.tick
    · exact h0.tick
    · exact h0.tick
    · exact h0.tick
    · split
      · exact mainLoop_started _ _ _ _ _ h0.tick
      · exact h0.tick
  exact this.1

/-- C13.  So does `touch`. -/
theorem touch_started (d : Dialect) (env : Env) (ex : Bool) (names : List Str) (h : History) (hs : Started h) :
    Started (touch d env ex names h).2 := by
  rcases (touch_all_or_nothing d env ex names h).2 with e | t
  · rw [e]; exact hs
  · intro f r hf hr
    by_cases hm : f ∈ names ∧ IsMigration f
    · obtain ⟨r', h1, _, h3, _⟩ := t.rows f hm.1 hm.2
      rw [hf] at h1; simp at h1; subst h1; simp [h3]
    · rw [t.frame f hm] at hf; exact hs f r hf hr

/-- C13.  So do `rm` and `mv`. -/
theorem rm_mv_started (d : Dialect) (env : Env) (ex : Bool) (names : List Str) (a b : Str) (h : History) (hs : Started h) :
    Started (rm d env ex names h).2 ∧ Started (mv d env ex a b h).2 := by
  constructor
  · have key : ∀ h', rmStmt d names h = some h' → Started h' := by
      intro h' e
      unfold rmStmt at e
      split at e
      · simp at e; subst e
        intro f r hf
        simp only at hf
        split at hf
        · simp at hf
        · exact hs f r hf
      · simp at e
    unfold rm
    split
    · exact hs
    · split
      · exact hs
      · exact hs
      · exact hs
      · exact hs
      · split
        · exact hs
        · split
          · exact hs
          · exact hs
          · exact hs
          · exact hs
          · exact key _ (by assumption)
          · exact hs
          · exact key _ (by assumption)
  · have key : ∀ h', mvStmt d a b h = some h' → Started h' := by
      intro h' e
      unfold mvStmt at e
      split at e
      · split at e
        · simp at e; subst e; exact hs
        · rename_i r hr
          split at e
          · simp at e; subst e; exact hs
          · split at e
            · simp at e
            · simp at e; subst e
              intro f r' hf
              simp only at hf
              split at hf
              · simp at hf; subst hf; exact hs _ _ hr
              · split at hf
                · simp at hf
                · exact hs f r' hf
      · simp at e
    unfold mv
    split
    · exact hs
    · split
      · exact hs
      · exact hs
      · exact hs
      · exact hs
      · split
        · exact hs
        · split
          · exact hs
          · exact hs
          · exact hs
          · exact hs
          · exact key _ (by assumption)
          · exact hs
          · exact key _ (by assumption)

example : Started rows2.hist := by
  intro f r hf _
  simp only [Rows.hist, rows2, List.find?] at hf
  grind

/-! ## C58: an interrupted read of the history -/

/-- Reading the history without interruption is the command. -/
theorem migrateSeen_all (cfg : Cfg) (env : Env) (names : List Str) (st : St) :
    migrateSeen cfg env (fun _ => true) names st = migrate cfg env names st := by
  unfold migrateSeen migrate
  simp only [if_true]
  rfl

/-- C58 fails: if the connection breaks while the history is read, `migrate` goes on with the rows it
has got, and executes a migration again that is recorded as applied. -/
theorem migrate_interrupted_read_refuted :
    ∃ (seen : Str → Bool) (f : Str) (r : Row) (h : History),
      h f = some r ∧ r.success = true ∧ ¬ Repeatable f ∧
      (migrateSeen (cfg0 .postgres) (envOk b!"A") seen [f] (start ⟨[], h⟩)).1 = .ok ∧
      execs (migrateSeen (cfg0 .postgres) (envOk b!"A") seen [f] (start ⟨[], h⟩)).2.log = [f] :=
  ⟨fun _ => false, b!"03.sql", ⟨[], some 3, true⟩, Rows.hist rows2, by
    rw [← isRepeatable_iff]; decide +kernel⟩

end Sqddl.Migrate
