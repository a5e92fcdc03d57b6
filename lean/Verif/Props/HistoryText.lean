import Verif.Lemmas.HistoryText
import Verif.Props.InsertText

/-!
# C104: the statements on the history table act on the rows of the named files

The texts that `touch`, `migrate`, `ls`, `rm` and `mv` send are read as SQL and run on a table.  What they
do is what the model of these commands takes one abstract call to do.
-/

namespace HistorySql
open Go SqlSpec Sqddl
open Sqddl.Migrate hiding Row
open SubsetSpec (Row)
open InsertSpec (clash equal byKey Keyed Sees rowOf runTexts keyedRows Target)
open Sqddl.BatchInsert (sent replaced Writable Upserts batchInsert_upserts_partial)

/-- The values of a row that the commands use. -/
def valueOf (cv : Conv) (r : Row) : Migrate.Row :=
  ⟨(r b!"checksum").getD [], (r b!"started_at").map cv.time, ((r b!"success").map cv.truth).getD false⟩

/-- The history that a table holds. -/
def asHistory (cv : Conv) (t : List Row) : History := fun f => (t.find? fun r => r b!"filename" = some f).map (valueOf cv)

/-- The rows of a table with their names. -/
def asRows (cv : Conv) (t : List Row) : Rows := t.map fun r => ((r b!"filename").getD [], valueOf cv r)

/-! ## Names -/

theorem literalName_iff (d : Dialect) (f v : Str) :
    literalName d f = some v ↔ readString d (escapeQuote '\'' f ++ ['\'']) = some (v, []) := by
  unfold literalName
  split
  · rename_i w e
    rw [e]
    simp
  · rename_i h
    constructor
    · intro h; cases h
    · intro e; exact absurd e (h v)

theorem mem_vals (d : Dialect) (fs vs : List Str) (h : fs.mapM (literalName d) = some vs) (f : Str) :
    f ∈ vs ↔ ∃ g ∈ fs, literalName d g = some f := by
  induction fs generalizing vs with
  | nil => cases h; simp
  | cons g fs ih =>
    rw [List.mapM_cons] at h
    cases e1 : literalName d g with
    | none => rw [e1] at h; cases h
    | some v =>
      cases e2 : fs.mapM (literalName d) with
      | none => rw [e1, e2] at h; cases h
      | some ws =>
        rw [e1, e2] at h
        cases h
        simp only [List.mem_cons, ih ws e2, exists_eq_or_imp, e1, Option.some.injEq]
        exact or_congr ⟨fun h => h.symm, fun h => h.symm⟩ Iff.rfl

theorem vals_all (d : Dialect) (fs vs : List Str) (h : fs.mapM (literalName d) = some vs) :
    ∀ f ∈ fs, (literalName d f).isSome := by
  induction fs generalizing vs with
  | nil => simp
  | cons g fs ih =>
    rw [List.mapM_cons] at h
    cases e1 : literalName d g with
    | none => rw [e1] at h; cases h
    | some v =>
      cases e2 : fs.mapM (literalName d) with
      | none => rw [e1, e2] at h; cases h
      | some ws =>
        intro f hf
        rcases List.mem_cons.1 hf with rfl | hf
        · rw [e1]; rfl
        · exact ih ws e2 f hf

theorem vals_ne (d : Dialect) (fs vs : List Str) (h : fs.mapM (literalName d) = some vs) (h0 : fs ≠ [] ∨ d = .sqlite) :
    vs ≠ [] ∨ d = .sqlite := by
  rcases h0 with h0 | h0
  · left
    obtain ⟨f, hf⟩ := List.exists_mem_of_ne_nil _ h0
    obtain ⟨v, hv⟩ := Option.isSome_iff_exists.1 (vals_all d fs vs h f hf)
    exact List.ne_nil_of_mem ((mem_vals d fs vs h v).2 ⟨f, hf, hv⟩)
  · exact .inr h0

theorem inList_vals (d : Dialect) (fs vs : List Str) (h : fs.mapM (literalName d) = some vs) (f : Str) :
    inList d fs f = decide (f ∈ vs) := by
  rw [Bool.eq_iff_iff, decide_eq_true_eq, mem_vals d fs vs h]
  simp only [inList, List.any_eq_true, beq_iff_eq, literalName_iff]

/-! ## Rows -/

theorem mem_namesIn (t : List Row) (r : Row) (hr : r ∈ t) (f : Str) (h : r b!"filename" = some f) : f ∈ namesIn t :=
  List.mem_filterMap.2 ⟨r, hr, h⟩

/-- In a table with one row per name that row is found. -/
theorem find_row {t : List Row} (h : IsHistory t) {r : Row} (hr : r ∈ t) {f : Str} (hf : r b!"filename" = some f) :
    (t.find? fun r => r b!"filename" = some f) = some r := by
  have hk := h.keyed
  clear h
  induction t with
  | nil => cases hr
  | cons x t ih =>
    rw [List.map_cons] at hk
    have hk := List.nodup_cons.1 hk
    rcases List.mem_cons.1 hr with rfl | hr
    · simp [hf]
    · rw [List.find?_cons_of_neg, ih hr hk.2]
      simp only [decide_eq_true_eq]
      intro hx
      exact hk.1 (List.mem_map.2 ⟨r, hr, hf.trans hx.symm⟩)

theorem asHistory_eq {cv : Conv} {t : List Row} (h : IsHistory t) (f : Str) (v : Migrate.Row) :
    asHistory cv t f = some v ↔ ∃ r ∈ t, r b!"filename" = some f ∧ valueOf cv r = v := by
  unfold asHistory
  constructor
  · intro e
    obtain ⟨r, hr, e⟩ := Option.map_eq_some_iff.1 e
    exact ⟨r, List.mem_of_find?_eq_some hr, by simpa using List.find?_some hr, e⟩
  · rintro ⟨r, hr, hf, e⟩
    rw [find_row h hr hf, Option.map_some, e]

theorem asHistory_none {cv : Conv} {t : List Row} (f : Str) :
    asHistory cv t f = none ↔ ∀ r ∈ t, r b!"filename" ≠ some f := by
  unfold asHistory
  simp [List.find?_eq_none]

theorem holds_in (cmp : Compare) {t : List Row} (h : IsHistory t) (vs : List Str)
    (hx : Exact cmp.eqv (namesIn t ++ vs)) (neg : Bool) {r : Row} (hr : r ∈ t) :
    ∃ f, r b!"filename" = some f ∧
      Cond.holds cmp ⟨neg, b!"filename", vs⟩ r = (neg != decide (f ∈ vs)) := by
  obtain ⟨f, hf⟩ := Option.isSome_iff_exists.1 (h.named r hr)
  refine ⟨f, hf, ?_⟩
  have e : vs.any (cmp.eqv f) = decide (f ∈ vs) := by
    rw [Bool.eq_iff_iff, decide_eq_true_eq, List.any_eq_true]
    have hn : f ∈ namesIn t ++ vs := List.mem_append.2 (.inl (mem_namesIn t r hr f hf))
    constructor
    · rintro ⟨v, hv, e⟩
      rwa [(hx f hn v (List.mem_append.2 (.inr hv))).1 e]
    · intro hv
      exact ⟨f, hv, (hx f hn f hn).2 rfl⟩
  unfold Cond.holds
  dsimp only
  rw [hf]
  dsimp only
  rw [e]

theorem IsHistory.filter {t : List Row} (h : IsHistory t) (p : Row → Bool) : IsHistory (t.filter p) :=
  ⟨fun r hr => h.named r (List.mem_filter.1 hr).1, h.keyed.sublist (List.filter_sublist.map _)⟩

/-! ## The query of migrate and ls -/

/-- Rows that are scanned one after the other, when no name is repeated. -/
theorem scan_eq (l : List (Str × Migrate.Row)) (hn : (l.map (·.1)).Nodup) (h : History) (f : Str) (v : Migrate.Row)
    (h0 : h f = none) : (l.foldl (fun h p => h.upsert p.1 p.2) h) f = some v ↔ (f, v) ∈ l := by
  induction l generalizing h with
  | nil => simp [h0]
  | cons p l ih =>
    rw [List.map_cons] at hn
    have hn := List.nodup_cons.1 hn
    rw [List.foldl_cons]
    by_cases e : p.1 = f
    · have hne : ∀ (l : List (Str × Migrate.Row)) (h : History), f ∉ l.map (·.1) →
          (l.foldl (fun h p => h.upsert p.1 p.2) h) f = h f := by
        intro l
        induction l with
        | nil => intro h _; rfl
        | cons q l ih =>
          intro h hq
          rw [List.foldl_cons, ih]
          · unfold History.upsert
            rw [if_neg]
            rintro rfl
            exact hq (by simp)
          · intro hf; exact hq (by simp [hf])
      rw [hne l _ (e ▸ hn.1)]
      unfold History.upsert
      rw [if_pos e.symm]
      constructor
      · intro hv
        cases hv
        rw [← e]
        exact List.mem_cons_self
      · intro hv
        rcases List.mem_cons.1 hv with hv | hv
        · rw [← hv]
        · exact absurd (List.mem_map.2 ⟨(f, v), hv, rfl⟩) (e ▸ hn.1)
    · rw [ih hn.2]
      · rw [List.mem_cons]
        constructor
        · exact .inr
        · rintro (hv | hv)
          · rw [← hv] at e; exact absurd rfl e
          · exact hv
      · unfold History.upsert
        rw [if_neg (fun h => e h.symm), h0]

/-- C104.  The query of `migrate` and of `ls` gives, in whatever order the database answers, the rows of the
selected files and no others. -/
theorem select_rows_partial (cmp : Compare) (cv : Conv) (cfg : Cfg) (hc : cfg.skipHistory = false) (table : Str)
    (ht : PlainName cfg.dialect table) (t : List Row) (h : IsHistory t) (fs vs : List Str)
    (hv : fs.mapM (literalName cfg.dialect) = some vs) (h0 : fs ≠ [] ∨ cfg.dialect = .sqlite)
    (hx : Exact cmp.eqv (namesIn t ++ vs)) :
    ∃ ans, ask cmp cfg.dialect (keywords cfg.dialect) (target table) t (selectText cfg.dialect table fs) = some ans ∧
      ∀ ans', ans'.Perm ans → scanRows cv ans' = selectRows cfg fs (asHistory cv t) := by
  have hs := select_stmt cfg.dialect table ht fs vs hv (vals_ne _ fs vs hv h0)
  refine ⟨_, by rw [ask, hs, Option.bind_some, Stmt.answer, if_pos (show (none, table) = (target table).name from rfl)], fun ans' hp => ?_⟩
  have hp2 : ans'.Perm ((t.filter (Cond.holds cmp ⟨false, b!"filename", vs⟩)).map fun r => columns.map r) :=
    hp.trans ((List.mergeSort_perm _ _).map _)
  have hscan : (((t.filter (Cond.holds cmp ⟨false, b!"filename", vs⟩)).map fun r => columns.map r).filterMap (scanRow cv)) =
      (t.filter (Cond.holds cmp ⟨false, b!"filename", vs⟩)).map fun r => ((r b!"filename").getD [], valueOf cv r) := by
    generalize t.filter _ = l
    induction l with
    | nil => rfl
    | cons x l ih =>
      rw [List.map_cons, List.map_cons, ← ih]
      rfl
  have hp3 := hp2.filterMap (scanRow cv)
  rw [hscan] at hp3
  have hf := h.filter (Cond.holds cmp ⟨false, b!"filename", vs⟩)
  have hnd : ((ans'.filterMap (scanRow cv)).map (·.1)).Nodup := by
    rw [(hp3.map _).nodup_iff, List.map_map]
    have hk := hf.keyed
    have hm := hf.named
    generalize t.filter _ = l at hk hm
    rw [List.nodup_iff_pairwise_ne, List.pairwise_map] at hk ⊢
    refine hk.imp_of_mem ?_
    intro a b ha hb hne
    obtain ⟨x, hx⟩ := Option.isSome_iff_exists.1 (hm a ha)
    obtain ⟨y, hy⟩ := Option.isSome_iff_exists.1 (hm b hb)
    rw [hx, hy] at hne
    simp only [Function.comp_apply, hx, hy, Option.getD_some]
    intro e
    exact hne (by rw [e])
  funext f
  apply Option.ext
  intro v
  unfold scanRows
  rw [scan_eq _ hnd _ _ _ rfl, hp3.mem_iff]
  unfold selectRows
  rw [hc, inList_vals _ fs vs hv]
  simp only [Bool.false_eq_true, if_false]
  by_cases hm : f ∈ vs
  · simp only [hm, decide_true, if_true]
    rw [asHistory_eq h]
    constructor
    · intro hi
      obtain ⟨r, hr, e⟩ := List.mem_map.1 hi
      obtain ⟨hr, -⟩ := List.mem_filter.1 hr
      obtain ⟨g, hg⟩ := Option.isSome_iff_exists.1 (h.named r hr)
      rw [hg] at e
      cases e
      exact ⟨r, hr, hg, rfl⟩
    · rintro ⟨r, hr, e, rfl⟩
      refine List.mem_map.2 ⟨r, List.mem_filter.2 ⟨hr, ?_⟩, by rw [e]; rfl⟩
      obtain ⟨g, hg, e2⟩ := holds_in cmp h vs hx false hr
      rw [e] at hg
      cases hg
      rw [e2]
      simp [hm]
  · simp only [hm, decide_false, Bool.false_eq_true, if_false]
    constructor
    · intro hi
      obtain ⟨r, hr, e⟩ := List.mem_map.1 hi
      obtain ⟨hr, hh⟩ := List.mem_filter.1 hr
      obtain ⟨g, hg, e2⟩ := holds_in cmp h vs hx false hr
      rw [e2] at hh
      rw [hg] at e
      cases e
      simp at hh
      exact absurd hh hm
    · intro h; cases h

/-! ## rm -/

/-- C104.  The DELETE of `rm` removes the rows of the named files and no others. -/
theorem delete_rows_partial (cmp : Compare) (cv : Conv) (d : Dialect) (table : Str) (ht : PlainName d table) (t : List Row)
    (h : IsHistory t) (fs vs : List Str) (hv : fs.mapM (literalName d) = some vs) (h0 : fs ≠ [])
    (hx : Exact cmp.eqv (namesIn t ++ vs)) :
    ∃ t', exec cmp d (keywords d) (target table) t (deleteText d table fs) = some t' ∧ IsHistory t' ∧
      rmStmt d fs (asHistory cv t) = some (asHistory cv t') := by
  have hs := delete_stmt d table ht fs vs hv (vals_ne _ fs vs hv (.inl h0))
  refine ⟨_, by rw [exec, hs, Option.bind_some, Stmt.run, if_pos (show (none, table) = (target table).name from rfl)], h.filter _, ?_⟩
  unfold rmStmt
  rw [if_pos (List.all_eq_true.2 (vals_all d fs vs hv))]
  refine congrArg some (funext fun f => ?_)
  have e : (fs.any fun g => literalName d g == some f) = decide (f ∈ vs) := by
    rw [Bool.eq_iff_iff, decide_eq_true_eq, mem_vals d fs vs hv]
    simp
  rw [e]
  apply Option.ext
  intro v
  rw [asHistory_eq (h.filter _)]
  by_cases hm : f ∈ vs
  · simp only [hm, decide_true, if_true]
    constructor
    · intro h; cases h
    · rintro ⟨r, hr, e, -⟩
      obtain ⟨hr, hh⟩ := List.mem_filter.1 hr
      obtain ⟨g, hg, e2⟩ := holds_in cmp h vs hx false hr
      rw [e] at hg
      cases hg
      rw [e2] at hh
      simp [hm] at hh
  · simp only [hm, decide_false, Bool.false_eq_true, if_false]
    rw [asHistory_eq h]
    constructor
    · rintro ⟨r, hr, e, ev⟩
      refine ⟨r, List.mem_filter.2 ⟨hr, ?_⟩, e, ev⟩
      obtain ⟨g, hg, e2⟩ := holds_in cmp h vs hx false hr
      rw [e] at hg
      cases hg
      rw [e2]
      simp [hm]
    · rintro ⟨r, hr, e, ev⟩
      exact ⟨r, (List.mem_filter.1 hr).1, e, ev⟩

/-! ## ls -/

/-- C104.  The second query of `ls` gives the names of the rows without a file, those of repeatable files
last. -/
theorem missing_rows_partial (cmp : Compare) (cv : Conv) (d : Dialect) (table : Str) (ht : PlainName d table) (t : List Row)
    (h : IsHistory t) (fs vs : List Str) (hv : fs.mapM (literalName d) = some vs) (h0 : fs ≠ [] ∨ d = .sqlite)
    (hx : Exact cmp.eqv (namesIn t ++ vs)) :
    ask cmp d (keywords d) (target table) t (missingText d table fs) =
      some ((missingNames d ⟨fun f => cmp.like f b!"repeatable/%", cmp.le⟩ fs (asRows cv t)).map fun f => [some f]) := by
  have hs := missing_stmt d table ht fs vs hv (vals_ne _ fs vs hv h0)
  rw [ask, hs, Option.bind_some, Stmt.answer, if_pos (show (none, table) = (target table).name from rfl)]
  refine congrArg some ?_
  unfold missingNames
  have e1 : ((asRows cv t).map (·.1)).filter (fun f => !inList d fs f) =
      (t.filter (Cond.holds cmp ⟨true, b!"filename", vs⟩)).map fun r => (r b!"filename").getD [] := by
    unfold asRows
    rw [List.map_map, List.filter_map]
    have : t.filter ((fun f => !inList d fs f) ∘ (fun x => x.1) ∘ fun r => ((r b!"filename").getD [], valueOf cv r)) =
        t.filter (Cond.holds cmp ⟨true, b!"filename", vs⟩) := by
      refine List.filter_congr fun r hr => ?_
      obtain ⟨g, hg, e2⟩ := holds_in cmp h vs hx true hr
      rw [e2]
      simp only [Function.comp_apply, hg, Option.getD_some, inList_vals d fs vs hv]
      simp
    rw [this]
    rfl
  rw [e1]
  have hf := h.filter (Cond.holds cmp ⟨true, b!"filename", vs⟩)
  generalize t.filter _ = l at hf
  rw [← List.map_mergeSort (r := before cmp [.like b!"filename" b!"repeatable/%", .column b!"filename"])]
  · rw [List.map_map]
    refine List.map_congr_left fun r hr => ?_
    obtain ⟨f, e⟩ := Option.isSome_iff_exists.1 (hf.named r (List.mem_mergeSort.1 hr))
    simp [e]
  · intro a ha b hb
    obtain ⟨x, ex⟩ := Option.isSome_iff_exists.1 (hf.named a ha)
    obtain ⟨y, ey⟩ := Option.isSome_iff_exists.1 (hf.named b hb)
    simp only [before, ex, ey, Option.elim_some, Option.getD_some, Collation.before]
    generalize cmp.like x _ = p
    generalize cmp.like y _ = q
    generalize cmp.le x y = m
    generalize cmp.le y x = n
    cases p <;> cases q <;> cases m <;> cases n <;> rfl

/-! ## mv -/

theorem clash_iff (eqv : Str → Str → Bool) (names : List Str) (hx : Exact eqv names) {a b : Row} {x y : Str}
    (ha : a b!"filename" = some x) (hb : b b!"filename" = some y) (hxn : x ∈ names) (hyn : y ∈ names) :
    clash eqv [b!"filename"] a b = true ↔ x = y := by
  have : clash eqv [b!"filename"] a b = eqv x y := by simp [clash, equal, ha, hb]
  rw [this]
  exact hx x hxn y hyn

theorem pairwise_iff (eqv : Str → Str → Bool) (names : List Str) (hx : Exact eqv names) (l : List Row)
    (hl : ∀ r ∈ l, ∃ f ∈ names, r b!"filename" = some f) :
    (l.Pairwise fun a b => clash eqv [b!"filename"] a b = false) ↔ (l.map (· b!"filename")).Nodup := by
  rw [List.nodup_iff_pairwise_ne, List.pairwise_map]
  have key : ∀ a ∈ l, ∀ b ∈ l, clash eqv [b!"filename"] a b = false ↔ a b!"filename" ≠ b b!"filename" := by
    intro a ha b hb
    obtain ⟨x, hxn, ex⟩ := hl a ha
    obtain ⟨y, hyn, ey⟩ := hl b hb
    rw [Bool.eq_false_iff, Ne, clash_iff eqv names hx ex ey hxn hyn, ex, ey]
    simp
  constructor
  · exact fun h => h.imp_of_mem fun ha hb => (key _ ha _ hb).1
  · exact fun h => h.imp_of_mem fun ha hb => (key _ ha _ hb).2

theorem map_inj {α β : Type} (k : α → β) {l : List α} (h : (l.map k).Nodup) {a b : α} (ha : a ∈ l) (hb : b ∈ l)
    (e : k a = k b) : a = b := by
  induction l with
  | nil => cases ha
  | cons x l ih =>
    rw [List.map_cons] at h
    have h := List.nodup_cons.1 h
    rcases List.mem_cons.1 ha with rfl | ha
    · rcases List.mem_cons.1 hb with rfl | hb
      · rfl
      · exact absurd (List.mem_map.2 ⟨b, hb, e.symm⟩) h.1
    · rcases List.mem_cons.1 hb with hb | hb
      · rw [hb] at e
        exact absurd (List.mem_map.2 ⟨a, ha, e⟩) h.1
      · exact ih h.2 ha hb

/-- C104.  The UPDATE of `mv` gives the row of the one name the other name and changes nothing else; it is
refused if there is a row with the other name already. -/
theorem rename_rows_partial (cmp : Compare) (cv : Conv) (d : Dialect) (table : Str) (ht : PlainName d table) (t : List Row)
    (h : IsHistory t) (src dest s u : Str) (hs : literalName d src = some s) (hu : literalName d dest = some u)
    (hx : Exact cmp.eqv (namesIn t ++ [s, u])) :
    (exec cmp d (keywords d) (target table) t (renameText d table src dest)).map (asHistory cv) =
      mvStmt d src dest (asHistory cv t) ∧
    ∀ t', exec cmp d (keywords d) (target table) t (renameText d table src dest) = some t' → IsHistory t' := by
  have hst := rename_stmt d table ht src dest s u hs hu
  let g : Row → Row := fun r => if equal cmp.eqv (r b!"filename") (some s) then set b!"filename" u r else r
  have hin : ∀ r ∈ t, ∃ f, r b!"filename" = some f ∧ f ∈ namesIn t ++ [s, u] := by
    intro r hr
    obtain ⟨f, hf⟩ := Option.isSome_iff_exists.1 (h.named r hr)
    exact ⟨f, hf, List.mem_append.2 (.inl (mem_namesIn t r hr f hf))⟩
  have hsn : s ∈ namesIn t ++ [s, u] := by simp
  have hun : u ∈ namesIn t ++ [s, u] := by simp
  have hg : ∀ r ∈ t, g r = if r b!"filename" = some s then set b!"filename" u r else r := by
    intro r hr
    obtain ⟨f, hf, hn⟩ := hin r hr
    show (if equal cmp.eqv (r b!"filename") (some s) then set b!"filename" u r else r) = _
    have : equal cmp.eqv (some f) (some s) = decide (f = s) := by
      show cmp.eqv f s = _
      rw [Bool.eq_iff_iff, decide_eq_true_eq]
      exact hx f hn s hsn
    rw [hf, this]
    simp
  have hgn : ∀ r ∈ t, g r b!"filename" = if r b!"filename" = some s then some u else r b!"filename" := by
    intro r hr
    rw [hg r hr]
    by_cases e : r b!"filename" = some s
    · rw [if_pos e, if_pos e]; simp [set]
    · rw [if_neg e, if_neg e]
  have hpw : (t.map g).Pairwise (fun a b => clash cmp.eqv [b!"filename"] a b = false) ↔
      ((t.map g).map (· b!"filename")).Nodup := by
    refine pairwise_iff cmp.eqv _ hx _ fun r' hr' => ?_
    obtain ⟨r, hr, rfl⟩ := List.mem_map.1 hr'
    obtain ⟨f, hf, hn⟩ := hin r hr
    rw [hgn r hr]
    by_cases e : r b!"filename" = some s
    · rw [if_pos e]; exact ⟨u, hun, rfl⟩
    · rw [if_neg e]; exact ⟨f, hn, hf⟩
  have hrun : exec cmp d (keywords d) (target table) t (renameText d table src dest) =
      if ((t.map g).map (· b!"filename")).Nodup then some (t.map g) else none := by
    rw [exec, hst, Option.bind_some, Stmt.run,
      if_neg (fun hne => hne (show (none, table) = (target table).name from rfl))]
    by_cases hk : ((t.map g).map (· b!"filename")).Nodup
    · rw [if_pos hk]
      exact if_pos (hpw.2 hk)
    · rw [if_neg hk]
      exact if_neg fun hc => hk (hpw.1 hc)
  rw [hrun]
  refine ⟨?_, ?_⟩
  · unfold mvStmt
    rw [hs, hu]
    dsimp only
    have same : t.map g = t → (if ((t.map g).map (· b!"filename")).Nodup then some (t.map g) else none).map (asHistory cv) =
        some (asHistory cv t) := by
      intro e
      rw [e, if_pos h.keyed]
      rfl
    cases hh : asHistory cv t s with
    | none =>
      dsimp only
      refine same ?_
      conv => rhs; rw [← List.map_id t]
      refine List.map_congr_left fun r hr => ?_
      rw [hg r hr, if_neg ((asHistory_none s).1 hh r hr)]
      rfl
    | some v =>
      dsimp only
      obtain ⟨r0, hr0, e0, ev0⟩ := (asHistory_eq h s v).1 hh
      by_cases hsu : s = u
      · rw [if_pos hsu]
        refine same ?_
        conv => rhs; rw [← List.map_id t]
        refine List.map_congr_left fun r hr => ?_
        rw [hg r hr]
        by_cases e : r b!"filename" = some s
        · rw [if_pos e]
          funext c
          show (if c = b!"filename" then some u else r c) = r c
          by_cases ec : c = b!"filename"
          · rw [if_pos ec, ec, e, hsu]
          · rw [if_neg ec]
        · rw [if_neg e]; rfl
      · rw [if_neg hsu]
        cases hhu : asHistory cv t u with
        | some w =>
          obtain ⟨r1, hr1, e1, -⟩ := (asHistory_eq h u w).1 hhu
          have hne : ¬ ((t.map g).map (· b!"filename")).Nodup := by
            intro hn
            rw [List.map_map] at hn
            have e2 : g r0 b!"filename" = some u := by rw [hgn r0 hr0, if_pos e0]
            have e3 : g r1 b!"filename" = some u := by
              rw [hgn r1 hr1, if_neg (by rw [e1]; intro e; cases e; exact hsu rfl), e1]
            have : r0 = r1 := map_inj (fun r => g r b!"filename") hn hr0 hr1 (e2.trans e3.symm)
            rw [this, e1] at e0
            cases e0
            exact hsu rfl
          rw [if_neg hne]
          rfl
        | none =>
          have hno := (asHistory_none u).1 hhu
          have hnd : ((t.map g).map (· b!"filename")).Nodup := by
            rw [List.map_map]
            have hk := h.keyed
            rw [List.nodup_iff_pairwise_ne, List.pairwise_map] at hk ⊢
            refine hk.imp_of_mem ?_
            intro a b ha hb hne
            simp only [Function.comp_apply]
            rw [hgn a ha, hgn b hb]
            by_cases ea : a b!"filename" = some s
            · rw [if_pos ea]
              by_cases eb : b b!"filename" = some s
              · exact absurd (ea.trans eb.symm) hne
              · rw [if_neg eb]; exact fun e => hno b hb e.symm
            · rw [if_neg ea]
              by_cases eb : b b!"filename" = some s
              · rw [if_pos eb]; exact hno a ha
              · rw [if_neg eb]; exact hne
          have hist : IsHistory (t.map g) := ⟨by
            intro r' hr'
            obtain ⟨r, hr, rfl⟩ := List.mem_map.1 hr'
            rw [hgn r hr]
            by_cases e : r b!"filename" = some s
            · rw [if_pos e]; rfl
            · rw [if_neg e]; exact h.named r hr, hnd⟩
          rw [if_pos hnd]
          simp only [Option.map_some, Option.isSome_none, Bool.false_eq_true, if_false]
          refine congrArg some (funext fun f => Option.ext fun x => ?_)
          rw [asHistory_eq hist]
          have hval : ∀ r ∈ t, valueOf cv (g r) = valueOf cv r := by
            intro r hr
            rw [hg r hr]
            by_cases e : r b!"filename" = some s
            · rw [if_pos e]; rfl
            · rw [if_neg e]
          by_cases hfu : f = u
          · rw [if_pos hfu]
            constructor
            · rintro ⟨r', hr', e1, e2⟩
              obtain ⟨r, hr, rfl⟩ := List.mem_map.1 hr'
              rw [hgn r hr] at e1
              by_cases e : r b!"filename" = some s
              · rw [hval r hr] at e2
                rw [← e2, ← (asHistory_eq h s _).2 ⟨r, hr, e, rfl⟩, hh]
              · rw [if_neg e, hfu] at e1
                exact absurd e1 (hno r hr)
            · intro hv
              cases hv
              refine ⟨g r0, List.mem_map.2 ⟨r0, hr0, rfl⟩, ?_, by rw [hval r0 hr0, ev0]⟩
              rw [hgn r0 hr0, if_pos e0, hfu]
          · rw [if_neg hfu]
            by_cases hfs : f = s
            · rw [if_pos hfs]
              constructor
              · rintro ⟨r', hr', e1, -⟩
                obtain ⟨r, hr, rfl⟩ := List.mem_map.1 hr'
                rw [hgn r hr] at e1
                by_cases e : r b!"filename" = some s
                · rw [if_pos e] at e1; cases e1; exact absurd rfl hfu
                · rw [if_neg e, hfs] at e1; exact absurd e1 e
              · intro h; cases h
            · rw [if_neg hfs, asHistory_eq h]
              constructor
              · rintro ⟨r', hr', e1, e2⟩
                obtain ⟨r, hr, rfl⟩ := List.mem_map.1 hr'
                rw [hgn r hr] at e1
                rw [hval r hr] at e2
                by_cases e : r b!"filename" = some s
                · rw [if_pos e] at e1; cases e1; exact absurd rfl hfu
                · rw [if_neg e] at e1; exact ⟨r, hr, e1, e2⟩
              · rintro ⟨r, hr, e1, e2⟩
                refine ⟨g r, List.mem_map.2 ⟨r, hr, rfl⟩, ?_, by rw [hval r hr, e2]⟩
                rw [hgn r hr, if_neg (by rw [e1]; intro e; cases e; exact hfs rfl), e1]
  · intro t' ht'
    by_cases hk : ((t.map g).map (· b!"filename")).Nodup
    · rw [if_pos hk] at ht'
      cases ht'
      refine ⟨?_, hk⟩
      intro r' hr'
      obtain ⟨r, hr, rfl⟩ := List.mem_map.1 hr'
      rw [hgn r hr]
      by_cases e : r b!"filename" = some s
      · rw [if_pos e]; rfl
      · rw [if_neg e]; exact h.named r hr
    · rw [if_neg hk] at ht'; cases ht'

/-! ## touch and migrate -/

/-- The values that are sent for a row: those of its columns. -/
def Encodes (cv : Conv) (vs : List (Option Str)) (p : Str × Migrate.Row) : Prop :=
  vs.length = 5 ∧ vs[0]? = some (some p.1) ∧ scanRow cv vs = some p

theorem encodes_row {cv : Conv} {vs : List (Option Str)} {p : Str × Migrate.Row} (h : Encodes cv vs p) :
    ∃ c s n b, vs = [some p.1, c, s, n, b] ∧ p.2 = ⟨c.getD [], s.map cv.time, (b.map cv.truth).getD false⟩ := by
  obtain ⟨h1, h2, h3⟩ := h
  match vs, h1, h2, h3 with
  | [f, c, s, n, b], _, h2, h3 =>
    simp at h2
    subst h2
    simp only [scanRow, Option.some.injEq] at h3
    exact ⟨c, s, n, b, rfl, by rw [← h3]⟩

theorem rowOf_columns (base : Row) (f c s n b : Option Str) :
    rowOf base columns [f, c, s, n, b] b!"filename" = f ∧
    rowOf base columns [f, c, s, n, b] b!"checksum" = c ∧
    rowOf base columns [f, c, s, n, b] b!"started_at" = s ∧
    rowOf base columns [f, c, s, n, b] b!"success" = b := by
  refine ⟨?_, ?_, ?_, ?_⟩ <;> simp [rowOf, columns, List.lookup]

theorem asHistory_byKey (cv : Conv) (t : List Row) (f : Str) :
    asHistory cv t f = (byKey [b!"filename"] t [some f]).map (valueOf cv) := by
  unfold asHistory byKey
  simp

theorem replaced_history (d : Dialect) (table : Str) : replaced (historyInsertInto d table) =
    [b!"checksum", b!"started_at", b!"time_taken_ns", b!"success"] := by
  cases d <;> rfl

/-- Upserting the rows of a table upserts those of the history that it holds. -/
theorem upsertAll_history (cv : Conv) (base : Row) (rows : List (List (Option Str) × (Str × Migrate.Row)))
    (T : BatchSpec.Table (List (Option Str)) Str (Option Str)) (he : ∀ p ∈ rows, Encodes cv p.1 p.2) :
    BatchSpec.upsertAll [b!"checksum", b!"started_at", b!"time_taken_ns", b!"success"] T
        (keyedRows [b!"filename"] (rows.map fun p => rowOf base columns p.1)) [none] = T [none] ∧
    (fun f => (BatchSpec.upsertAll [b!"checksum", b!"started_at", b!"time_taken_ns", b!"success"] T
        (keyedRows [b!"filename"] (rows.map fun p => rowOf base columns p.1)) [some f]).map (valueOf cv)) =
      rows.foldl (fun (h : History) p => h.upsert p.2.1 p.2.2) (fun f => (T [some f]).map (valueOf cv)) := by
  induction rows generalizing T with
  | nil => exact ⟨rfl, rfl⟩
  | cons p rows ih =>
    obtain ⟨c, s, n, b, e, ep⟩ := encodes_row (he p (by simp))
    obtain ⟨r1, r2, r3, r4⟩ := rowOf_columns base (some p.2.1) c s n b
    have hstep : ∀ T, BatchSpec.upsertAll [b!"checksum", b!"started_at", b!"time_taken_ns", b!"success"] T
        (keyedRows [b!"filename"] ((p :: rows).map fun p => rowOf base columns p.1)) =
        BatchSpec.upsertAll [b!"checksum", b!"started_at", b!"time_taken_ns", b!"success"]
          (BatchSpec.upsert [b!"checksum", b!"started_at", b!"time_taken_ns", b!"success"] T [some p.2.1]
            (rowOf base columns p.1))
          (keyedRows [b!"filename"] (rows.map fun p => rowOf base columns p.1)) := by
      intro T
      unfold BatchSpec.upsertAll keyedRows
      rw [List.map_cons, List.map_cons, List.foldl_cons]
      dsimp only
      rw [List.map_cons, List.map_nil, e, r1]
    rw [hstep, List.foldl_cons]
    obtain ⟨i1, i2⟩ := ih (BatchSpec.upsert [b!"checksum", b!"started_at", b!"time_taken_ns", b!"success"] T [some p.2.1]
            (rowOf base columns p.1)) (fun q hq => he q (by simp [hq]))
    refine ⟨i1.trans ?_, i2.trans (congrArg (List.foldl _ · rows) (funext fun f => ?_))⟩
    · unfold BatchSpec.upsert
      rw [if_neg (by simp)]
    · unfold BatchSpec.upsert History.upsert
      by_cases hf : f = p.2.1
      · rw [if_pos (by rw [hf]), if_pos hf]
        have v1 : valueOf cv (rowOf base columns p.1) = p.2.2 := by
          rw [e, ep]
          unfold valueOf
          rw [r2, r3, r4]
        cases T [some p.2.1] with
        | none => exact congrArg some v1
        | some old =>
          refine congrArg some ?_
          rw [← v1]
          rfl
      · rw [if_neg (by simpa using hf), if_neg hf]

theorem history_writable (cv : Conv) (d : Dialect) (table : Str) (ht : PlainName d table)
    (rows : List (List (Option Str) × (Str × Migrate.Row))) (he : ∀ p ∈ rows, Encodes cv p.1 p.2) :
    Writable (historyInsertInto d table) (target table) (rows.map (·.1)) where
  schema := fun hne => absurd rfl hne
  table := ht
  columns := by
    show ∀ c ∈ columns, PlainName d c
    cases d <;> decide +kernel
  nodup := by
    show columns.Nodup
    decide
  fits := by
    refine ⟨by show columns ≠ []; decide, ?_⟩
    show ∀ m, BatchSpec.maxParams d = some m → 2 * 5 ≤ m
    intro m hm
    cases d <;> cases hm <;> decide
  name := rfl
  rows := by
    intro vs hvs
    obtain ⟨p, hp, rfl⟩ := List.mem_map.1 hvs
    exact (he p hp).1

theorem history_upserts (same : Str → Str → Bool) (cmp : Compare) (cv : Conv) (d : Dialect)
    (hd : d = .sqlite ∨ d = .postgres ∨ d = .mysql ∨ d = .sqlserver) (table : Str)
    (t : List Row) (h : IsHistory t) (rows : List (List (Option Str) × (Str × Migrate.Row)))
    (he : ∀ p ∈ rows, Encodes cv p.1 p.2) (hx : Exact cmp.eqv (namesIn t ++ rows.map (·.2.1)))
    (hn : d = .postgres ∨ d = .sqlserver → (rows.map (·.2.1)).Nodup)
    (ha : d = .sqlserver → InsertSpec.Apart same table) :
    Upserts same cmp.eqv (historyInsertInto d table) (target table) (rows.map (·.1)) t := by
  have hname : ∀ p ∈ rows, rowOf (target table).default columns p.1 b!"filename" = some p.2.1 := by
    intro p hp
    obtain ⟨c, s, n, b, e, -⟩ := encodes_row (he p hp)
    rw [e, (rowOf_columns _ _ c s n b).1]
  have hnames : (rows.map (·.1)).map (rowOf (target table).default columns) =
      rows.map fun p => rowOf (target table).default columns p.1 := by rw [List.map_map]; rfl
  refine ⟨hd, List.cons_ne_nil _ _, ?_, rfl, ?_, ?_, ha, ?_⟩
  · show ∀ c ∈ [b!"filename"], c ∈ columns
    decide
  · show Sees cmp.eqv [b!"filename"] (t ++ (rows.map (·.1)).map (rowOf (target table).default columns))
    have hin : ∀ r ∈ t ++ (rows.map (·.1)).map (rowOf (target table).default columns),
        ∃ f ∈ namesIn t ++ rows.map (·.2.1), r b!"filename" = some f := by
      intro r hr
      rcases List.mem_append.1 hr with hr | hr
      · obtain ⟨f, hf⟩ := Option.isSome_iff_exists.1 (h.named r hr)
        exact ⟨f, List.mem_append.2 (.inl (mem_namesIn t r hr f hf)), hf⟩
      · rw [hnames] at hr
        obtain ⟨p, hp, rfl⟩ := List.mem_map.1 hr
        exact ⟨p.2.1, List.mem_append.2 (.inr (List.mem_map.2 ⟨p, hp, rfl⟩)), hname p hp⟩
    intro a ha b hb
    obtain ⟨x, hxn, ex⟩ := hin a ha
    obtain ⟨y, hyn, ey⟩ := hin b hb
    rw [clash_iff cmp.eqv _ hx ex ey hxn hyn]
    simp [ex, ey]
  · intro hd'
    have hn := hn hd'
    show (((rows.map (·.1)).map (rowOf (target table).default columns)).map [b!"filename"].map).Nodup
    rw [hnames, List.map_map]
    rw [List.nodup_iff_pairwise_ne, List.pairwise_map] at hn ⊢
    refine hn.imp_of_mem ?_
    intro a b ha hb hne
    simp only [Function.comp_apply, List.map_cons, List.map_nil, hname a ha, hname b hb]
    intro e
    exact hne (by simpa using e)
  · intro _ _
    show ∃ c ∈ columns, c ∉ [b!"filename"] ∧ c ∉ ([] : List Str)
    exact ⟨b!"checksum", by decide, by decide, by simp⟩

/-- C104.  The rows that `touch` and `migrate` record are in the history afterwards, and the rows of other
files are as they were. -/
theorem record_rows_partial (same : Str → Str → Bool) (cmp : Compare) (cv : Conv) (d : Dialect)
    (hd : d = .sqlite ∨ d = .postgres ∨ d = .mysql ∨ d = .sqlserver) (table : Str) (ht : PlainName d table)
    (t : List Row) (h : IsHistory t) (rows : List (List (Option Str) × (Str × Migrate.Row)))
    (he : ∀ p ∈ rows, Encodes cv p.1 p.2) (hx : Exact cmp.eqv (namesIn t ++ rows.map (·.2.1)))
    (hn : d = .postgres ∨ d = .sqlserver → (rows.map (·.2.1)).Nodup)
    (ha : d = .sqlserver → InsertSpec.Apart same table) (ok : Nat → Bool)
    (hok : ((historyInsertInto d table).exec ok true (rows.map (·.1))).2 = .ok) :
    ∃ t', runTexts same cmp.eqv d (keywords d) (target table)
        ((historyInsertInto d table).sent ((historyInsertInto d table).exec ok true (rows.map (·.1))).1) t = some t' ∧
      IsHistory t' ∧ asHistory cv t' = rows.foldl (fun h p => h.upsert p.2.1 p.2.2) (asHistory cv t) := by
  have key : ∀ l : List Row, Keyed [b!"filename"] l ↔ (l.map (· b!"filename")).Nodup := by
    intro l
    unfold Keyed
    rw [List.nodup_iff_pairwise_ne, List.pairwise_map, List.nodup_iff_pairwise_ne, List.pairwise_map]
    constructor
    · exact fun h => h.imp fun hne e => hne (by simp [e])
    · exact fun h => h.imp fun hne e => hne (by simpa using e)
  have hw := history_writable cv d table ht rows he
  have hu := history_upserts same cmp cv d hd table t h rows he hx hn ha
  have hk : Keyed (historyInsertInto d table).keyColumns t := (key t).2 h.keyed
  have hdia : (historyInsertInto d table).dialect = d := rfl
  have hkey : (historyInsertInto d table).keyColumns = [b!"filename"] := rfl
  have hcol : (historyInsertInto d table).columns = columns := rfl
  generalize hbi : historyInsertInto d table = bi at hw hu hk hdia hkey hcol hok ⊢
  obtain ⟨t', h1, h2, h3⟩ := batchInsert_upserts_partial same cmp.eqv bi (target table) ok true
    (rows.map (·.1)) t hw hu hk hok
  rw [hkey, hcol, ← hbi, replaced_history] at h3
  rw [hdia] at h1
  rw [hkey] at h2
  have h2 := (key t').1 h2
  have hnames : (rows.map (·.1)).map (rowOf (target table).default columns) =
      rows.map fun p => rowOf (target table).default columns p.1 := by rw [List.map_map]; rfl
  rw [hnames] at h3
  obtain ⟨u1, u2⟩ := upsertAll_history cv (target table).default rows (byKey [b!"filename"] t) he
  rw [← h3] at u1 u2
  refine ⟨t', h1, ⟨fun r hr => ?_, h2⟩, ?_⟩
  · cases hf : r b!"filename" with
    | some f => rfl
    | none =>
      exfalso
      have hno : byKey [b!"filename"] t [none] = none := by
        rw [InsertSpec.byKey_none]
        intro hm
        obtain ⟨x, hx, e⟩ := List.mem_map.1 hm
        have := h.named x hx
        simp at e
        rw [e] at this
        cases this
      rw [hno, InsertSpec.byKey_none] at u1
      exact u1 (List.mem_map.2 ⟨r, hr, by simp [hf]⟩)
  · have e1 : asHistory cv t' = fun f => (byKey [b!"filename"] t' [some f]).map (valueOf cv) :=
      funext fun f => asHistory_byKey cv t' f
    have e2 : asHistory cv t = fun f => (byKey [b!"filename"] t [some f]).map (valueOf cv) :=
      funext fun f => asHistory_byKey cv t f
    rw [e1, e2, u2]

end HistorySql
