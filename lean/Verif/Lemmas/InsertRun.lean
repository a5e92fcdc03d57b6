import Verif.Lemmas.InsertRead

/-!
# What the statements of a batch insert do with a table
-/

namespace InsertSpec
open SqlSpec Sqddl
open DdlText (Name)
open SelectSpec (Means Resolves Scope)
open SubsetSpec (Row)
open BatchSpec (Table upsert upsertAll sqlUpdate sqlInsertMissing sqlUpsertBatch applySets SetVal)

/-! ## Rows -/

theorem lookup_zip (cols : List Str) (vs : List (Option Str)) (hl : vs.length = cols.length) (c : Str) (hc : c ∈ cols) :
    ∃ v, (cols.zip vs).lookup c = some v := by
  induction cols generalizing vs with
  | nil => cases hc
  | cons x cols ih =>
    cases vs with
    | nil => simp at hl
    | cons v vs =>
      rw [List.zip_cons_cons, List.lookup_cons]
      by_cases h : c = x
      · exact ⟨v, by simp [h]⟩
      · have : (c == x) = false := by simpa using h
        rw [this]
        exact ih vs (by simpa using hl) ((List.mem_cons.1 hc).resolve_left h)

/-- The values of columns that are given do not come from elsewhere. -/
theorem rowOf_base (base base' : Row) (cols : List Str) (vs : List (Option Str)) (hl : vs.length = cols.length) (c : Str)
    (hc : c ∈ cols) : rowOf base cols vs c = rowOf base' cols vs c := by
  obtain ⟨v, h⟩ := lookup_zip cols vs hl c hc
  simp [rowOf, h]

theorem rowOf_values (base : Row) (cols : List Str) (hn : cols.Nodup) (vs : List (Option Str))
    (hl : vs.length = cols.length) : cols.map (rowOf base cols vs) = vs := by
  induction cols generalizing vs with
  | nil => cases vs with
    | nil => rfl
    | cons => simp at hl
  | cons x cols ih =>
    cases vs with
    | nil => simp at hl
    | cons v vs =>
      have hn := List.nodup_cons.1 hn
      rw [List.map_cons, ← ih hn.2 vs (by simpa using hl)]
      refine congr (congrArg _ (by simp [rowOf])) ?_
      rw [ih hn.2 vs (by simpa using hl)]
      conv => rhs; rw [← ih hn.2 vs (by simpa using hl)]
      refine List.map_congr_left fun c hc => ?_
      have : (c == x) = false := by
        simp only [beq_eq_false_iff_ne]
        rintro rfl
        exact hn.1 hc
      simp [rowOf, List.lookup_cons, this]

/-! ## Keys -/

theorem map_key {key : List Str} {a b : Row} (h : key.map a = key.map b) : ∀ c ∈ key, a c = b c :=
  List.map_inj_left.1 h

theorem clash_congr (eqv : Str → Str → Bool) {key : List Str} {a a' b b' : Row} (ha : key.map a = key.map a')
    (hb : key.map b = key.map b') : clash eqv key a b = clash eqv key a' b' := by
  unfold clash
  refine congrArg _ ?_
  rw [Bool.eq_iff_iff, List.all_eq_true, List.all_eq_true]
  constructor
  · intro h c hc; rw [← map_key ha c hc, ← map_key hb c hc]; exact h c hc
  · intro h c hc; rw [map_key ha c hc, map_key hb c hc]; exact h c hc

/-- The keys are some of these. -/
def Among (key : List Str) (all t : List Row) : Prop := ∀ x ∈ t, ∃ a ∈ all, key.map x = key.map a

theorem Among.self (key : List Str) {all t : List Row} (h : ∀ x ∈ t, x ∈ all) : Among key all t :=
  fun x hx => ⟨x, h x hx, rfl⟩

theorem Sees.iff {eqv : Str → Str → Bool} {key : List Str} {all t t' : List Row} (h : Sees eqv key all)
    (ht : Among key all t) (ht' : Among key all t') {a b : Row} (ha : a ∈ t) (hb : b ∈ t') :
    clash eqv key a b = true ↔ key.map a = key.map b := by
  obtain ⟨a', ha', ea⟩ := ht a ha
  obtain ⟨b', hb', eb⟩ := ht' b hb
  rw [clash_congr eqv ea eb, ea, eb]
  exact h a' ha' b' hb'

theorem modify_map (p : Row → Bool) (f : Row → Row) (t : List Row) (i : Nat) (hi : t.findIdx? p = some i)
    (hu : t.Pairwise fun a b => p a = true → p b = false) :
    t.modify i f = t.map fun x => if p x then f x else x := by
  induction t generalizing i with
  | nil => simp at hi
  | cons x t ih =>
    have hu := List.pairwise_cons.1 hu
    rw [List.findIdx?_cons] at hi
    by_cases hp : p x = true
    · rw [if_pos hp] at hi
      cases hi
      rw [List.map_cons, if_pos hp, List.modify_zero_cons]
      have e : t.map (fun x => if p x then f x else x) = t.map id :=
        List.map_congr_left fun y hy => by simp [hu.1 y hy hp]
      rw [e, List.map_id]
    · rw [if_neg hp] at hi
      obtain ⟨j, hj, rfl⟩ := Option.map_eq_some_iff.1 hi
      rw [List.map_cons, if_neg hp, List.modify_succ_cons, ih j hj hu.2]

theorem byKey_map (key : List Str) (g : Row → Row) (hg : ∀ x, key.map (g x) = key.map x) (t : List Row)
    (k : List (Option Str)) : byKey key (t.map g) k = (byKey key t k).map g := by
  unfold byKey
  rw [List.find?_map]
  refine congrArg _ (congrArg (fun p => t.find? p) (funext fun x => ?_))
  simp [Function.comp_apply, hg]

theorem keyed_map {key : List Str} (g : Row → Row) (hg : ∀ x, key.map (g x) = key.map x) {t : List Row}
    (h : Keyed key t) : Keyed key (t.map g) := by
  unfold Keyed at h ⊢
  rw [List.map_map, show (key.map ∘ g : Row → List (Option Str)) = key.map from funext hg]
  exact h

theorem among_map {key : List Str} (g : Row → Row) (hg : ∀ x, key.map (g x) = key.map x) {all t : List Row}
    (h : Among key all t) : Among key all (t.map g) := by
  intro x hx
  obtain ⟨y, hy, rfl⟩ := List.mem_map.1 hx
  obtain ⟨a, ha, e⟩ := h y hy
  exact ⟨a, ha, (hg y).trans e⟩

theorem byKey_none {key : List Str} {t : List Row} {k : List (Option Str)} :
    byKey key t k = none ↔ k ∉ t.map key.map := by
  unfold byKey
  simp [List.find?_eq_none]

/-! ## INSERT, one row after the other -/

/-- What an action does with the row that is there: some columns get new values. -/
def Sets (act : Action) (cols : List Str) : Prop :=
  match act with
  | .refuse => False
  | .nothing _ => cols = []
  | .set _ sets => ∀ new old : Row, applySets sets new old = fun c => if c ∈ cols then new c else old c

theorem insertRow_eq (eqv : Str → Str → Bool) (key cols : List Str) (hc : ∀ c ∈ key, c ∉ cols) (act : Action)
    (ha : Sets act cols) (all t : List Row) (r : Row) (hs : Sees eqv key all) (ht : Among key all t) (hr : r ∈ all)
    (hk : Keyed key t) :
    ∃ t', insertRow eqv key act t r = some t' ∧ Keyed key t' ∧ Among key all t' ∧
      byKey key t' = upsert cols (byKey key t) (key.map r) r := by
  have hself : Among key all [r] := Among.self key (by simpa using hr)
  have hiff : ∀ x ∈ t, clash eqv key r x = true ↔ key.map r = key.map x := fun x hx =>
    hs.iff hself ht (List.mem_singleton_self r) hx
  unfold insertRow
  cases hf : t.findIdx? (clash eqv key r) with
  | none =>
    have hnone : ∀ x ∈ t, key.map r ≠ key.map x := by
      intro x hx e
      have := List.findIdx?_eq_none_iff.1 hf x hx
      rw [(hiff x hx).2 e] at this
      cases this
    refine ⟨t ++ [r], rfl, ?_, ?_, ?_⟩
    · unfold Keyed
      rw [List.map_append, List.nodup_append]
      refine ⟨hk, by simp, ?_⟩
      intro a ha b hb
      obtain ⟨x, hx, rfl⟩ := List.mem_map.1 ha
      simp at hb
      subst hb
      exact fun e => hnone x hx e.symm
    · intro x hx
      rcases List.mem_append.1 hx with hx | hx
      · exact ht x hx
      · exact hself x hx
    · have hb : byKey key t (key.map r) = none := byKey_none.2 fun hm => by
        obtain ⟨x, hx, e⟩ := List.mem_map.1 hm
        exact hnone x hx e.symm
      funext k
      unfold upsert
      by_cases e : k = key.map r
      · rw [if_pos e, hb, e]
        unfold byKey at hb ⊢
        rw [List.find?_append, hb]
        simp
      · rw [if_neg e]
        unfold byKey
        rw [List.find?_append]
        simp [Ne.symm e]
  | some i =>
    have hu : t.Pairwise fun a b => clash eqv key r a = true → clash eqv key r b = false := by
      have := List.pairwise_map.1 hk
      refine this.imp_of_mem ?_
      intro a b ha hb hne h
      rw [Bool.eq_false_iff]
      intro h'
      exact hne (((hiff a ha).1 h).symm.trans ((hiff b hb).1 h'))
    -- the row that is there
    obtain ⟨x, hx, ex⟩ : ∃ x ∈ t, key.map r = key.map x := by
      have h1 := List.findIdx?_eq_some_iff_getElem.1 hf
      obtain ⟨hi, h1, _⟩ := h1
      exact ⟨t[i], List.getElem_mem hi, (hiff _ (List.getElem_mem hi)).1 h1⟩
    have hold : ∃ y, byKey key t (key.map r) = some y := by
      cases h : byKey key t (key.map r) with
      | some y => exact ⟨y, rfl⟩
      | none => exact absurd (List.mem_map.2 ⟨x, hx, ex.symm⟩) (byKey_none.1 h)
    obtain ⟨y, hy⟩ := hold
    cases act with
    | refuse => exact absurd ha id
    | nothing ks =>
      cases (show cols = [] from ha)
      refine ⟨t, rfl, hk, ht, ?_⟩
      funext k
      unfold upsert
      by_cases e : k = key.map r
      · rw [if_pos e, hy, e, hy]; simp
      · rw [if_neg e]
    | set ks sets =>
      have ha : ∀ new old : Row, applySets sets new old = fun c => if c ∈ cols then new c else old c := ha
      dsimp only
      rw [modify_map _ _ t i hf hu]
      have hg : ∀ x : Row, key.map ((fun x : Row => if clash eqv key r x = true then applySets sets r x else x) x) =
          key.map x := by
        intro x
        dsimp only
        by_cases h : clash eqv key r x = true
        · rw [if_pos h, ha]
          exact List.map_congr_left fun c hcc => by simp [hc c hcc]
        · rw [if_neg h]
      refine ⟨_, rfl, keyed_map _ hg hk, among_map _ hg ht, ?_⟩
      funext k
      rw [byKey_map key _ hg]
      unfold upsert
      by_cases e : k = key.map r
      · rw [if_pos e, hy, e, hy, Option.map_some]
        have hm : y ∈ t := List.mem_of_find?_eq_some hy
        have hky : key.map y = key.map r := by simpa using List.find?_some hy
        rw [if_pos ((hiff y hm).2 hky.symm), ha]
        refine congrArg some (funext fun c => ?_)
        by_cases hcc : c ∈ cols <;> simp [hcc]
      · rw [if_neg e]
        cases hb : byKey key t k with
        | none => rfl
        | some z =>
          have hm : z ∈ t := List.mem_of_find?_eq_some hb
          have hkz : key.map z = k := by simpa using List.find?_some hb
          have : ¬ clash eqv key r z = true := fun h => e (hkz ▸ ((hiff z hm).1 h).symm)
          rw [Option.map_some, if_neg this]

/-- The rows with their keys. -/
def keyedRows (key : List Str) (rows : List Row) : List (List (Option Str) × Row) := rows.map fun r => (key.map r, r)

theorem insertRows_eq (eqv : Str → Str → Bool) (key cols : List Str) (hc : ∀ c ∈ key, c ∉ cols) (act : Action)
    (ha : Sets act cols) (all rows t : List Row) (hs : Sees eqv key all) (ht : Among key all t)
    (hr : ∀ r ∈ rows, r ∈ all) (hk : Keyed key t) :
    ∃ t', rows.foldlM (insertRow eqv key act) t = some t' ∧ Keyed key t' ∧ Among key all t' ∧
      byKey key t' = upsertAll cols (byKey key t) (keyedRows key rows) := by
  induction rows generalizing t with
  | nil => exact ⟨t, rfl, hk, ht, rfl⟩
  | cons r rows ih =>
    obtain ⟨t1, e1, k1, a1, b1⟩ := insertRow_eq eqv key cols hc act ha all t r hs ht (hr r (by simp)) hk
    obtain ⟨t2, e2, k2, a2, b2⟩ := ih t1 a1 (fun x hx => hr x (by simp [hx])) k1
    refine ⟨t2, ?_, k2, a2, ?_⟩
    · rw [List.foldlM_cons, e1]
      exact e2
    · rw [b2, b1]
      rfl

theorem appendRows_eq (eqv : Str → Str → Bool) (key : List Str) (rows t : List Row)
    (h1 : ∀ r ∈ rows, ∀ x ∈ t, clash eqv key r x = false)
    (h2 : rows.Pairwise fun a b => clash eqv key b a = false) :
    rows.foldlM (insertRow eqv key .refuse) t = some (t ++ rows) := by
  induction rows generalizing t with
  | nil => simp
  | cons r rows ih =>
    have h2 := List.pairwise_cons.1 h2
    have : insertRow eqv key .refuse t r = some (t ++ [r]) := by
      unfold insertRow
      rw [List.findIdx?_eq_none_iff.2 fun x hx => h1 r (by simp) x hx]
    rw [List.foldlM_cons, this]
    have ih := ih (t ++ [r]) (by
      intro a ha x hx
      rcases List.mem_append.1 hx with hx | hx
      · exact h1 a (by simp [ha]) x hx
      · rw [List.mem_singleton.1 hx]; exact h2.1 a ha) h2.2
    simpa using ih

/-! ## The statements of a batch -/

theorem rows_length (d : Dialect) (cols : Nat) (vss : List (List (Option Str))) (h : ∀ vs ∈ vss, vs.length = cols) :
    fillRows vss.flatten 0 (rowsP d vss.length cols) = some vss := fillRows_eq d cols vss h

theorem insertOf_run (eqv : Str → Str → Bool) (bi : BatchInsert) (tg : Target) (ht : tg.name = nameOf bi)
    (hn : bi.columns.Nodup) (vss : List (List (Option Str))) (hv : ∀ vs ∈ vss, vs.length = bi.columns.length)
    (hf : (actionOf bi).fits tg.key = true)
    (ho : (actionOf bi).once eqv bi.dialect tg.key (vss.map (rowOf tg.default bi.columns)) = true) (t : List Row) :
    (insertOf bi vss.length).run eqv bi.dialect tg vss.flatten t =
      (vss.map (rowOf tg.default bi.columns)).foldlM (insertRow eqv tg.key (actionOf bi)) t := by
  unfold Insert.run insertOf
  dsimp only
  rw [fillRows_eq _ _ vss hv, Option.bind_some, if_neg]
  simp only [ht, hf, ho, hn]
  simpa using hv

theorem actionOf_sets (bi : BatchInsert) (hd : bi.dialect = .sqlite ∨ bi.dialect = .postgres ∨ bi.dialect = .mysql)
    (hk : bi.keys ≠ []) : Sets (actionOf bi) bi.nonKeys := by
  obtain ⟨k, ks, e⟩ : ∃ k ks, bi.keys = k :: ks := List.exists_cons_of_ne_nil hk
  unfold actionOf
  rw [e]
  dsimp only
  rcases hd with hd | hd | hd
  all_goals rw [hd]
  all_goals dsimp only
  all_goals by_cases hn : bi.nonKeys ≠ []
  all_goals simp only [if_pos hn, if_neg hn]
  · exact BatchInsert.applySets_new bi.nonKeys
  · simpa [Sets] using hn
  · exact BatchInsert.applySets_new bi.nonKeys
  · simpa [Sets] using hn
  · exact BatchInsert.applySets_new bi.nonKeys
  · have hn : bi.nonKeys = [] := by simpa using hn
    rw [hn]
    intro new old
    funext c
    unfold applySets
    by_cases h : k = c
    · subst h; simp
    · simp [h]

theorem actionOf_fits (bi : BatchInsert) : (actionOf bi).fits bi.keys = true := by
  have hnew : (bi.nonKeys.map fun c => (c, SetVal.new c)).all
      (fun s => !bi.keys.contains s.1 || s.2 == .old s.1) = true := by
    rw [List.all_eq_true]
    intro s hs
    obtain ⟨c, hc, rfl⟩ := List.mem_map.1 hs
    simp [((BatchInsert.mem_nonKeys bi c).1 hc).2]
  have hself : bi.keys.all (bi.keys.contains ·) = true := by simp
  unfold actionOf
  cases e : bi.keys with
  | nil => rfl
  | cons k ks =>
    rw [e] at hnew hself
    cases bi.dialect <;> dsimp only
    all_goals first | rfl | skip
    all_goals by_cases hn : bi.nonKeys ≠ []
    all_goals simp only [if_pos hn, if_neg hn, Action.fits, hnew, hself, Bool.and_self, Bool.true_and]
    simp

/-! ### SQL Server -/

theorem means_table {same : Str → Str → Bool} {bi : BatchInsert} (h : Apart same bi.table) :
    Means same (nameOf bi) (nameOf bi) = true ∧ Means same (nameOf bi) tmp = false ∧
      Means same tmp (nameOf bi) = false ∧ Means same tmp tmp = true := by
  unfold Means
  refine ⟨?_, by simp [nameOf, tmp, h.name], by simp [nameOf, tmp, h.tmp], by simp [tmp, h.refl]⟩
  by_cases hs : bi.schema = [] <;> simp [nameOf, hs, h.refl]

theorem holds_join {same : Str → Str → Bool} (eqv : Str → Str → Bool) {bi : BatchInsert} (h : Apart same bi.table)
    (hk : bi.keys ≠ []) (r v : Row) :
    holds same eqv [(nameOf bi, r), (tmp, v)] [] (equations bi) = clash eqv bi.keys r v := by
  obtain ⟨h1, h2, h3, h4⟩ := means_table h
  unfold holds equations clash
  rw [List.all_map]
  simp [Function.comp_def, lookup, SelectSpec.value, h1, h2, h3, h4, hk]

theorem holds_exists {same : Str → Str → Bool} (eqv : Str → Str → Bool) {bi : BatchInsert} (h : Apart same bi.table)
    (hk : bi.keys ≠ []) (r v : Row) :
    holds same eqv [(nameOf bi, r)] [(tmp, v)] (equations bi) = clash eqv bi.keys r v := by
  obtain ⟨h1, h2, h3, h4⟩ := means_table h
  unfold holds equations clash
  rw [List.all_map]
  simp [Function.comp_def, lookup, SelectSpec.value, h1, h3, h4, hk]

theorem assign_eq {same : Str → Str → Bool} {bi : BatchInsert} (h : Apart same bi.table) (cols : List Str) (r v : Row) :
    assign same [(nameOf bi, r), (tmp, v)] (cols.map fun c => (c, ⟨tmp, c⟩)) r =
      fun c => if c ∈ cols then v c else r c := by
  obtain ⟨_, _, h3, h4⟩ := means_table h
  funext c
  have hl : (cols.map fun c => (c, (⟨tmp, c⟩ : SelectSpec.Ref))).lookup c =
      if c ∈ cols then some ⟨tmp, c⟩ else none := by
    induction cols with
    | nil => rfl
    | cons x cols ih =>
      rw [List.map_cons, List.lookup_cons]
      by_cases e : c = x
      · subst e; simp
      · have : (c == x) = false := by simpa using e
        rw [this, ih]
        simp [e]
  unfold assign
  rw [hl]
  by_cases hc : c ∈ cols
  · simp [hc, SelectSpec.value, h3, h4]
  · simp [hc]

theorem valuesOf_rows (bi : BatchInsert) (hn : bi.columns.Nodup) (vss : List (List (Option Str)))
    (hv : ∀ vs ∈ vss, vs.length = bi.columns.length) :
    (valuesOf bi vss.length).rowsOf vss.flatten = some (vss.map (rowOf (fun _ => none) bi.columns)) := by
  unfold Values.rowsOf valuesOf
  dsimp only
  rw [fillRows_eq _ _ vss hv, Option.bind_some, if_pos ⟨hn, by simpa using hv⟩]

theorem find_map_congr {α β γ : Type} (l : List α) (f : α → β) (g : α → γ) (p : β → Bool) (q : γ → Bool)
    (h : ∀ a ∈ l, p (f a) = q (g a)) :
    ∃ o : Option α, (l.map f).find? p = o.map f ∧ (l.map g).find? q = o.map g ∧ ∀ a, o = some a → a ∈ l := by
  induction l with
  | nil => exact ⟨none, rfl, rfl, by simp⟩
  | cons a l ih =>
    by_cases hp : p (f a) = true
    · refine ⟨some a, ?_, ?_, by simp⟩
      · simp [hp]
      · simp [← h a (by simp), hp]
    · obtain ⟨o, h1, h2, h3⟩ := ih fun x hx => h x (by simp [hx])
      refine ⟨o, ?_, ?_, fun x hx => by simp [h3 x hx]⟩
      · simp [hp, h1]
      · simp [← h a (by simp), hp, h2]

theorem updateOf_run {same : Str → Str → Bool} (eqv : Str → Str → Bool) (bi : BatchInsert) (hsame : Apart same bi.table)
    (tg : Target) (hname : tg.name = nameOf bi) (htk : tg.key = bi.keys) (hk : bi.keys ≠ []) (hn : bi.columns.Nodup)
    (hkc : ∀ c ∈ bi.keys, c ∈ bi.columns) (vss : List (List (Option Str)))
    (hv : ∀ vs ∈ vss, vs.length = bi.columns.length) (all t : List Row) (hs : Sees eqv bi.keys all)
    (hall : ∀ r ∈ vss.map (rowOf tg.default bi.columns), r ∈ all) (ht : Among bi.keys all t) (hkt : Keyed bi.keys t) :
    ∃ t', (updateOf bi vss.length).run same eqv tg vss.flatten t = some t' ∧ Keyed bi.keys t' ∧ Among bi.keys all t' ∧
      byKey bi.keys t' = sqlUpdate bi.updateColumns (byKey bi.keys t)
        (keyedRows bi.keys (vss.map (rowOf tg.default bi.columns))) := by
  obtain ⟨m1, m2, m3, m4⟩ := means_table hsame
  let g : Row → Row := fun r =>
    match (vss.map (rowOf (fun _ => none) bi.columns)).find? fun v => clash eqv bi.keys r v with
    | some v => fun c => if c ∈ bi.updateColumns then v c else r c
    | none => r
  have hg : ∀ r, bi.keys.map (g r) = bi.keys.map r := by
    intro r
    refine List.map_congr_left fun c hc => ?_
    show g r c = r c
    dsimp only [g]
    cases (vss.map (rowOf (fun _ => none) bi.columns)).find? fun v => clash eqv bi.keys r v with
    | none => rfl
    | some v => exact if_neg fun h => (mem_updateColumns bi c h).2 hc
  have hrun : (updateOf bi vss.length).run same eqv tg vss.flatten t = some (t.map g) := by
    unfold UpdateFrom.run
    rw [show (updateOf bi vss.length).values = valuesOf bi vss.length from rfl, valuesOf_rows bi hn vss hv,
      Option.bind_some]
    dsimp only
    have hcond : ¬ ((updateOf bi vss.length).table ≠ tg.name ∨ (updateOf bi vss.length).first ≠ tg.name ∨
        (updateOf bi vss.length).sets.any (fun s => tg.key.contains s.1) = true ∨
        ¬ ((updateOf bi vss.length).sets.all fun s => decide (Resolves same
          [(updateOf bi vss.length).first, (none, (valuesOf bi vss.length).name)] s.2)) = true ∨
        ¬ ((updateOf bi vss.length).on.all fun e => decide (Resolves same
          [(updateOf bi vss.length).first, (none, (valuesOf bi vss.length).name)] e.1) && decide (Resolves same
          [(updateOf bi vss.length).first, (none, (valuesOf bi vss.length).name)] e.2)) = true) := by
      have e1 : ((none, (valuesOf bi vss.length).name) : Name) = tmp := rfl
      have e2 : (updateOf bi vss.length).first = nameOf bi := rfl
      have r1 : ∀ c, Resolves same [nameOf bi, tmp] ⟨tmp, c⟩ := fun c => by simp [Resolves, m3, m4]
      have r2 : ∀ c, Resolves same [nameOf bi, tmp] ⟨nameOf bi, c⟩ := fun c => by simp [Resolves, m1, m2]
      rw [e1, e2]
      rintro (h | h | h | h | h)
      · exact h hname.symm
      · exact h hname.symm
      · rw [List.any_eq_true] at h
        obtain ⟨s, hs, h⟩ := h
        obtain ⟨c, hc, rfl⟩ := List.mem_map.1 hs
        rw [htk] at h
        exact (mem_updateColumns bi c hc).2 (by simpa using h)
      · apply h
        rw [List.all_eq_true]
        intro s hs
        obtain ⟨c, hc, rfl⟩ := List.mem_map.1 hs
        simpa using r1 c
      · apply h
        rw [List.all_eq_true]
        intro e he
        obtain ⟨c, hc, rfl⟩ := List.mem_map.1 he
        simp [r1 c, r2 c]
    rw [if_neg hcond]
    refine congrArg _ (List.map_congr_left fun r _ => ?_)
    have e1 : ((none, (valuesOf bi vss.length).name) : Name) = tmp := rfl
    simp only [e1, show (updateOf bi vss.length).first = nameOf bi from rfl,
      show (updateOf bi vss.length).on = equations bi from rfl,
      show (updateOf bi vss.length).sets = bi.updateColumns.map fun c => (c, ⟨tmp, c⟩) from rfl,
      holds_join eqv hsame hk, assign_eq hsame]
    rfl
  refine ⟨t.map g, hrun, keyed_map g hg hkt, among_map g hg ht, ?_⟩
  funext k
  rw [byKey_map _ g hg]
  unfold sqlUpdate
  cases hb : byKey bi.keys t k with
  | none => rfl
  | some r =>
    have hm : r ∈ t := List.mem_of_find?_eq_some hb
    have hkr : bi.keys.map r = k := by simpa using List.find?_some hb
    rw [Option.map_some, Option.map_some]
    refine congrArg some ?_
    have hkeys : ∀ vs ∈ vss, bi.keys.map (rowOf (fun _ => none) bi.columns vs) =
        bi.keys.map (rowOf tg.default bi.columns vs) := fun vs hvs =>
      List.map_congr_left fun c hc => rowOf_base _ _ _ _ (hv vs hvs) c (hkc c hc)
    obtain ⟨o, h1, h2, h3⟩ := find_map_congr vss (rowOf (fun _ => none) bi.columns)
      (fun vs => (bi.keys.map (rowOf tg.default bi.columns vs), rowOf tg.default bi.columns vs))
      (fun v => clash eqv bi.keys r v) (fun p => decide (p.1 = k)) (fun vs hvs => by
        rw [clash_congr eqv rfl (hkeys vs hvs), Bool.eq_iff_iff,
          hs.iff ht (Among.self _ hall) hm (List.mem_map.2 ⟨vs, hvs, rfl⟩), hkr]
        simp [eq_comm])
    unfold keyedRows
    rw [List.map_map]
    show g r = _
    dsimp only [g]
    rw [h1]
    rw [show ((fun r => (List.map r bi.keys, r)) ∘ rowOf tg.default bi.columns) = fun vs =>
      (bi.keys.map (rowOf tg.default bi.columns vs), rowOf tg.default bi.columns vs) from rfl, h2]
    cases o with
    | none => rfl
    | some vs =>
      funext c
      simp only [Option.map_some]
      by_cases hc : c ∈ bi.updateColumns
      · rw [if_pos hc, if_pos hc]
        exact rowOf_base _ _ _ _ (hv vs (h3 vs rfl)) c (mem_updateColumns bi c hc).1
      · rw [if_neg hc, if_neg hc]

theorem missingOf_run {same : Str → Str → Bool} (eqv : Str → Str → Bool) (bi : BatchInsert) (hsame : Apart same bi.table)
    (tg : Target) (hname : tg.name = nameOf bi) (htk : tg.key = bi.keys) (hk : bi.keys ≠ []) (hn : bi.columns.Nodup)
    (hkc : ∀ c ∈ bi.keys, c ∈ bi.columns) (vss : List (List (Option Str)))
    (hv : ∀ vs ∈ vss, vs.length = bi.columns.length) (all t : List Row) (hs : Sees eqv bi.keys all)
    (hall : ∀ r ∈ vss.map (rowOf tg.default bi.columns), r ∈ all) (ht : Among bi.keys all t) (hkt : Keyed bi.keys t)
    (hd : ((keyedRows bi.keys (vss.map (rowOf tg.default bi.columns))).map (·.1)).Nodup) :
    ∃ t', (missingOf bi vss.length).run same eqv tg vss.flatten t = some t' ∧ Keyed bi.keys t' ∧ Among bi.keys all t' ∧
      some (byKey bi.keys t') = sqlInsertMissing (byKey bi.keys t)
        (keyedRows bi.keys (vss.map (rowOf tg.default bi.columns))) := by
  let rows := vss.map (rowOf tg.default bi.columns)
  let new := rows.filter fun r => decide (bi.keys.map r ∉ t.map bi.keys.map)
  have hrows : Among bi.keys all rows := Among.self _ hall
  have hsub : new.Sublist rows := List.filter_sublist
  have hnew : Among bi.keys all new := fun x hx => hrows x (hsub.subset hx)
  have hnk : Keyed bi.keys rows := by
    unfold keyedRows at hd
    rw [List.map_map] at hd
    exact hd
  have hnn : Keyed bi.keys new := hnk.sublist (hsub.map _)
  have hsel : ((vss.map (rowOf (fun _ => none) bi.columns)).filter fun v =>
      !t.any fun r => holds same eqv [(nameOf bi, r)] [(tmp, v)] (equations bi)).map
        (fun v => rowOf tg.default bi.columns (bi.columns.map v)) = new := by
    have hboth : ∀ l : List (List (Option Str)), (∀ vs ∈ l, vs ∈ vss) →
        ((l.map (rowOf (fun _ => none) bi.columns)).filter fun v =>
          !t.any fun r => holds same eqv [(nameOf bi, r)] [(tmp, v)] (equations bi)).map
            (fun v => rowOf tg.default bi.columns (bi.columns.map v)) =
          (l.map (rowOf tg.default bi.columns)).filter fun r => decide (bi.keys.map r ∉ t.map bi.keys.map) := by
      intro l
      induction l with
      | nil => intro _; rfl
      | cons vs l ih =>
        intro h
        have hvs := h vs (by simp)
        have ih := ih fun x hx => h x (by simp [hx])
        have hkeys : bi.keys.map (rowOf (fun _ => none) bi.columns vs) =
            bi.keys.map (rowOf tg.default bi.columns vs) :=
          List.map_congr_left fun c hc => rowOf_base _ _ _ _ (hv vs hvs) c (hkc c hc)
        have hc : (!t.any fun r => holds same eqv [(nameOf bi, r)] [(tmp, rowOf (fun _ => none) bi.columns vs)]
            (equations bi)) = decide (bi.keys.map (rowOf tg.default bi.columns vs) ∉ t.map bi.keys.map) := by
          rw [Bool.eq_iff_iff]
          simp only [holds_exists eqv hsame hk, Bool.not_eq_true', List.any_eq_false, decide_eq_true_eq, List.mem_map,
            not_exists, not_and]
          refine forall_congr' fun x => forall_congr' fun hx => ?_
          rw [clash_congr eqv rfl hkeys, hs.iff ht hrows hx (List.mem_map.2 ⟨vs, hvs, rfl⟩)]
        rw [List.map_cons, List.map_cons, List.filter_cons, List.filter_cons, hc]
        by_cases hp : decide (bi.keys.map (rowOf tg.default bi.columns vs) ∉ t.map bi.keys.map) = true
        · rw [if_pos hp, if_pos hp, List.map_cons, ih, rowOf_values _ _ hn vs (hv vs hvs)]
        · rw [if_neg hp, if_neg hp, ih]
    exact hboth vss fun _ h => h
  have hrun : (missingOf bi vss.length).run same eqv tg vss.flatten t = some (t ++ new) := by
    unfold InsertMissing.run
    rw [show (missingOf bi vss.length).values = valuesOf bi vss.length from rfl, valuesOf_rows bi hn vss hv,
      Option.bind_some]
    have e1 : ((none, (valuesOf bi vss.length).name) : Name) = tmp := rfl
    simp only [e1, missingOf]
    rw [if_neg (by simp [hname, hn]), hsel, htk]
    refine appendRows_eq eqv bi.keys new t ?_ ?_
    · intro r hr x hx
      rw [Bool.eq_false_iff]
      intro h
      have h := (hs.iff hnew ht hr hx).1 h
      have := (List.mem_filter.1 hr).2
      simp only [decide_eq_true_eq] at this
      exact this (h ▸ List.mem_map.2 ⟨x, hx, rfl⟩)
    · have := List.pairwise_map.1 hnn
      refine this.imp_of_mem ?_
      intro a b ha hb hne
      rw [Bool.eq_false_iff]
      intro h
      exact hne ((hs.iff hnew hnew hb ha).1 h).symm
  refine ⟨t ++ new, hrun, ?_, ?_, ?_⟩
  · unfold Keyed
    rw [List.map_append, List.nodup_append]
    refine ⟨hkt, hnn, ?_⟩
    intro a ha b hb e
    obtain ⟨x, hx, rfl⟩ := List.mem_map.1 hb
    have := (List.mem_filter.1 hx).2
    simp only [decide_eq_true_eq] at this
    exact this (e ▸ ha)
  · intro x hx
    rcases List.mem_append.1 hx with hx | hx
    · exact ht x hx
    · exact hnew x hx
  · have hfil : (keyedRows bi.keys rows).filter (fun r => (byKey bi.keys t r.1).isNone) = keyedRows bi.keys new := by
      unfold keyedRows
      rw [List.filter_map]
      refine congrArg _ (congrArg (fun p => rows.filter p) (funext fun r => ?_))
      rw [Bool.eq_iff_iff]
      simp only [Function.comp_apply, Option.isNone_iff_eq_none, byKey_none, decide_eq_true_eq]
    unfold sqlInsertMissing
    dsimp only
    rw [hfil, if_pos (by
      unfold keyedRows
      rw [List.map_map]
      exact hnn)]
    refine congrArg some (funext fun k => ?_)
    have hfind : ((keyedRows bi.keys new).find? fun p => decide (p.1 = k)).map (·.2) =
        new.find? fun r => decide (bi.keys.map r = k) := by
      unfold keyedRows
      rw [List.find?_map, Option.map_map]
      simp [Function.comp_def]
    rw [hfind]
    unfold byKey
    rw [List.find?_append]
    cases t.find? fun r => decide (bi.keys.map r = k) <;> rfl

end InsertSpec
