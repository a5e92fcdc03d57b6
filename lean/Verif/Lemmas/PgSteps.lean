import Verif.Lemmas.PgPhases
import Verif.Lemmas.Converge
import Verif.Props.PgColumns

/-!
# The changes of a Postgres table, one kind after the other
-/

namespace PgSpec
open SqlSpec Sqddl DdlText PgText EngineSpec Sqddl.Postgres
open PgText (Act Stmt)
open CatalogSpec (keyConstraint foreignKey liveColumns liveConstraints liveIndexes)

/-- A table with fewer constraints and indexes. -/
theorem Fits.less {S G : Db} {k : Key} {t t' : Tbl} (h : Fits S G k t)
    (hc : ∀ n c, t'.con n = some c → t.con n = some c)
    (hi : ∀ n x, t'.idx n = some x → t.idx n = some x) : Fits S G k t' where
  table := h.table
  fk := fun n c cs ref h1 h2 => h.fk n c cs ref (hc n c h1) h2
  idx := fun n x h1 => h.idx n x (hi n x h1)
  key := fun n c h1 h2 => h.key n c (hc n c h1) h2

/-- Everything but these. -/
def without {α : Type} (ns : List Str) (f : Str → Option α) : Str → Option α :=
  fun n => if n ∈ ns then none else f n

theorem without_some {α : Type} {ns : List Str} {f : Str → Option α} {n : Str} {x : α}
    (h : without ns f n = some x) : n ∉ ns ∧ f n = some x := by
  unfold without at h
  split at h
  · cases h
  · exact ⟨by assumption, h⟩

theorem without_cons {α : Type} (n : Str) (ns : List Str) (f : Str → Option α) :
    without ns (put f n none) = without (n :: ns) f := by
  funext m
  unfold without put
  by_cases e : m = n
  · subst e; simp
  · simp [e]

theorem without_nil {α : Type} (f : Str → Option α) : without [] f = f := by
  funext m; simp [without]

section
variable {S G db : Db} {k : Key} {s g : Tbl}

/-- An index of the old version is dropped. -/
theorem runs_dropIndex (hS : Consistent S) (hp : Passable S G) (hm : Mid S G db)
    (hs : S.table k = some s) (hg : G.table k = some g) {t : Tbl} {nm : DdlText.Name} {x : Idx}
    (h1 : (key nm).1 = k.1) (hft : Fits S G k t) (hx : s.idx nm.2 = some x)
    (ht : ∀ y, t.idx nm.2 = some y → y = x) (hgn : g.idx nm.2 = none) :
    Runs (db.withTable k t) [.dropIndex nm] (db.withTable k { t with idx := put t.idx nm.2 none }) := by
  have hm' := hm.withTable hft
  have hold : Has S k.1 nm.2 (.index k.2) := ⟨s, x, hs, hx⟩
  have same : ∀ o, Has (db.withTable k t) k.1 nm.2 o → o = .index k.2 := by
    intro o ho
    rcases hm'.has ho with h | h
    · exact hS.names _ _ _ _ h hold
    · exact (hp.names _ _ _ _ hold h).symm
  refine ⟨?_, ?_⟩
  · intro a t' h2
    rw [h1] at h2
    refine ⟨?_, ?_⟩
    · intro c hc
      cases ho : owns c with
      | false => rfl
      | true => cases same (.key a) ⟨t', c, h2, hc, ho⟩
    · intro y hy hu
      have e := same (.index a) ⟨t', y, h2, hy⟩
      simp only [Obj.index.injEq] at e
      subst e
      rw [show ((k.1, k.2) : Key) = k from rfl, withTable_self] at h2
      cases h2
      have e := ht y hy
      subst e
      rintro ⟨k', t'', m, c, cs, ref, h3, h4, h5, h6, h7⟩
      obtain ⟨h8, h9⟩ := (hm' k' t'' h3).fk m c cs ref h4 h5
      exact hp.indexes k s g nm.2 y hs hg hx hu hgn k' m cs ref h8 h9 (by rw [h6, h1]) h7
  · show effect _ _ = _
    simp only [effect, Db.withTable]
    congr 1
    funext k'
    by_cases e : k' = k
    · subst e
      rw [if_pos h1.symm, put_self, put_self]
      rfl
    · rw [put_ne _ _ e, put_ne _ _ e]
      split
      · rename_i h2
        cases h3 : db.table k' with
        | none => rfl
        | some t' =>
          rw [Option.map_some]
          congr 1
          have : t'.idx nm.2 = none := by
            cases h4 : t'.idx nm.2 with
            | none => rfl
            | some y =>
              exfalso
              have h5 := same (.index k'.2) ⟨t', y, by
                rw [← h1, ← h2, show ((k'.1, k'.2) : Key) = k' from rfl, withTable_other _ e, h3], h4⟩
              simp only [Obj.index.injEq] at h5
              exact e (Prod.ext (h2.trans h1) h5)
          rw [put_eq this]
      · rfl

/-- Indexes of the old version are dropped. -/
theorem runs_dropIndexes (hS : Consistent S) (hp : Passable S G) (hm : Mid S G db)
    (hs : S.table k = some s) (hg : G.table k = some g) {α : Type} (nm : α → DdlText.Name) :
    ∀ (xs : List α) (t : Tbl), Fits S G k t → (∀ x ∈ xs, (key (nm x)).1 = k.1) →
    (∀ x ∈ xs, (s.idx (nm x).2).isSome) → (∀ n y, t.idx n = some y → s.idx n = some y) →
    (∀ x ∈ xs, g.idx (nm x).2 = none) →
    Runs (db.withTable k t) (xs.map fun x => .dropIndex (nm x))
      (db.withTable k { t with idx := without (xs.map fun x => (nm x).2) t.idx }) := by
  intro xs
  induction xs with
  | nil => intro t _ _ _ _ _; rw [List.map_nil, List.map_nil, without_nil]; rfl
  | cons x xs ih =>
    intro t hft hk hx ht hgn
    obtain ⟨y, hy⟩ := Option.isSome_iff_exists.1 (hx x List.mem_cons_self)
    have r := runs_dropIndex hS hp hm hs hg (hk x List.mem_cons_self) hft hy (by
      intro z hz
      have := ht _ _ hz
      rw [hy] at this
      cases this
      rfl) (hgn x List.mem_cons_self)
    have less : ∀ n y, put t.idx (nm x).2 none n = some y → t.idx n = some y := by
      intro n y h
      by_cases e : n = (nm x).2
      · subst e; rw [put_self] at h; cases h
      · rw [put_ne _ _ e] at h; exact h
    have r2 := ih { t with idx := put t.idx (nm x).2 none } (hft.less (fun _ _ h => h) less)
      (fun y hy => hk y (List.mem_cons_of_mem _ hy)) (fun y hy => hx y (List.mem_cons_of_mem _ hy))
      (fun n y h => ht n y (less n y h)) (fun y hy => hgn y (List.mem_cons_of_mem _ hy))
    dsimp only at r2
    rw [without_cons] at r2
    exact runs_append r r2

/-- Keys of the old version are dropped. -/
theorem steps_dropConstraints (hp : Passable S G) (hm : Mid S G db)
    (hs : S.table k = some s) (hg : G.table k = some g) : ∀ (ns : List Str) (t : Tbl), Fits S G k t →
    (∀ n ∈ ns, ∀ c cols, t.con n = some c → c.kind = .primary cols ∨ c.kind = .unique cols →
      s.con n = some c ∧ g.con n = none) →
    Steps db k t (ns.map (.dropConstraint true)) { t with con := without ns t.con } := by
  intro ns
  induction ns with
  | nil => intro t _ _; rw [without_nil]; rfl
  | cons n ns ih =>
    intro t hft h
    have less : ∀ m y, put t.con n none m = some y → t.con m = some y := by
      intro m y h
      by_cases e : m = n
      · subst e; rw [put_self] at h; cases h
      · rw [put_ne _ _ e] at h; exact h
    refine ⟨⟨Or.inl rfl, ?_⟩, ?_⟩
    · intro c cols h1 h2
      obtain ⟨h3, h4⟩ := h n List.mem_cons_self c cols h1 h2
      rintro ⟨k', t', m, d, cs, ref, h5, h6, h7, h8, h9⟩
      obtain ⟨h10, h11⟩ := ((hm.withTable hft) k' t' h5).fk m d cs ref h6 h7
      exact hp.keys k s g n c cols hs hg h3 h2 h4 k' m cs ref h10 h11 h8 h9
    · have r := ih { t with con := put t.con n none } (hft.less less fun _ _ h => h) (by
        intro m hm' c cols h1 h2
        exact h m (List.mem_cons_of_mem _ hm') c cols (less m c h1) h2)
      dsimp only at r
      rw [without_cons] at r
      exact r

/-- Columns are dropped. -/
theorem steps_dropColumns (hG : Consistent G) (hm : Mid S G db) (hg : G.table k = some g) :
    ∀ (ns : List Str) (t : Tbl), Fits S G k t →
    (∀ n ∈ ns, g.col n = none ∧ ∀ m c, t.col m = some c → generatedFrom n c = false) →
    Steps db k t (ns.map .dropColumn)
      { col := without ns t.col
        con := fun m => (t.con m).filter fun c => !ns.any fun n => conUses n c
        idx := fun m => (t.idx m).filter fun x => !ns.any fun n => idxUses n x } := by
  intro ns
  induction ns with
  | nil =>
    intro t _ _
    simp only [without_nil, List.any_nil, Bool.not_false, filter_true, List.map_nil]
    rfl
  | cons n ns ih =>
    intro t hft h
    obtain ⟨h1, h2⟩ := h n List.mem_cons_self
    refine ⟨⟨?_, fun m c h3 _ => h2 m c h3⟩, ?_⟩
    · rintro ⟨k', t', m, d, cs, ref, h5, h6, h7, h8, h9⟩
      obtain ⟨_, r, h10, h11, _⟩ := (hm.withTable hft).target hG h5 h6 h7
      rw [h8, hg] at h10
      cases h10
      have := h11 n h9
      rw [h1] at this
      cases this
    · have e : eff t (.dropColumn n) = {
          col := put t.col n none
          con := fun m => (t.con m).filter fun c => !conUses n c
          idx := fun m => (t.idx m).filter fun x => !idxUses n x } := rfl
      have r := ih (eff t (.dropColumn n)) (by
        rw [e]
        refine hft.less (fun m c h3 => ?_) fun m c h3 => ?_
        · exact (Option.filter_eq_some_iff.1 h3).1
        · exact (Option.filter_eq_some_iff.1 h3).1) (by
        intro m hm'
        refine ⟨(h m (List.mem_cons_of_mem _ hm')).1, fun j c h3 => ?_⟩
        rw [e] at h3
        dsimp only at h3
        by_cases ej : j = n
        · subst ej; rw [put_self] at h3; cases h3
        · rw [put_ne _ _ ej] at h3
          exact (h m (List.mem_cons_of_mem _ hm')).2 j c h3)
      rw [e] at r
      dsimp only at r
      rw [without_cons] at r
      show Steps db k (eff t (.dropColumn n)) _ _
      rw [e]
      simp only [Option.filter_filter, List.any_cons, Bool.not_or] at r ⊢
      exact r

/-- The constraints after their flags are changed. -/
def alterCons (qs : List Constraint) (f : Str → Option Con) (n : Str) : Option Con :=
  match qs.find? fun q => q.constraintName == n with
  | some q => (f n).map fun c =>
    { c with deferrable := q.isDeferrable, initiallyDeferred := q.isInitiallyDeferred }
  | none => f n

theorem alterCons_cons (q : Constraint) (qs : List Constraint) (f : Str → Option Con)
    (h : q.constraintName ∉ qs.map fun q => q.constraintName) :
    alterCons qs (put f q.constraintName ((f q.constraintName).map fun c =>
      { c with deferrable := q.isDeferrable, initiallyDeferred := q.isInitiallyDeferred })) =
    alterCons (q :: qs) f := by
  funext n
  unfold alterCons
  rw [List.find?_cons]
  by_cases e : q.constraintName = n
  · subst e
    have : qs.find? (fun r => r.constraintName == q.constraintName) = none := by
      rw [List.find?_eq_none]
      intro r hr e
      exact h (List.mem_map.2 ⟨r, hr, by simpa using e⟩)
    rw [this]
    simp [put_self]
  · have : (q.constraintName == n) = false := by simpa using e
    rw [this, put_ne _ _ (Ne.symm e)]

/-- Foreign keys become deferrable or the contrary. -/
theorem steps_alterConstraints : ∀ (qs : List Constraint) (t : Tbl),
    (qs.map fun q => q.constraintName).Nodup →
    (∀ q ∈ qs, (∃ c cs ref, t.con q.constraintName = some c ∧ c.kind = .foreign cs ref) ∧
      (q.isInitiallyDeferred = true → q.isDeferrable = true)) →
    Steps db k t (qs.map fun q =>
        .alterConstraint q.constraintName q.isDeferrable q.isInitiallyDeferred)
      { t with con := alterCons qs t.con } := by
  intro qs
  induction qs with
  | nil => intro t _ _; rfl
  | cons q qs ih =>
    intro t h0 h
    obtain ⟨h1, h2⟩ := List.nodup_cons.1 h0
    refine ⟨h q List.mem_cons_self, ?_⟩
    rw [← alterCons_cons q qs t.con h1]
    exact ih { t with con := put t.con q.constraintName ((t.con q.constraintName).map fun c =>
      { c with deferrable := q.isDeferrable, initiallyDeferred := q.isInitiallyDeferred }) } h2 (by
      intro r hr
      have h3 := h r (List.mem_cons_of_mem _ hr)
      dsimp only
      rw [put_ne _ _ (fun e => h1 (List.mem_map.2 ⟨r, hr, e⟩))]
      exact h3)

/-! ## Keys are made of indexes -/

theorem idxColsOf_plain : ∀ cs : List Str, (∀ n ∈ cs, isExpr n = false) →
    idxColsOf .postgres cs [] = plainCols cs := by
  intro cs
  induction cs with
  | nil => intro _; rfl
  | cons c cs ih =>
    intro h
    rw [idxColsOf, h c (by simp), if_neg (by simp), List.tail_nil, ih fun n hn => h n (by simp [hn])]
    rfl

theorem idxNames_plain {x : Idx} {cs : List Str} (h : x.cols = plainCols cs) : idxNames x = cs := by
  unfold idxNames
  rw [h, plainCols, List.filterMap_map]
  exact List.filterMap_some

/-- The index that a key is made of. -/
def keyIdx (cur : Str) (c : Constraint) : Idx := (idxOf .postgres cur true false (keyIndex c)).resolve cur

theorem keyIdx_cols {cur : Str} {c : Constraint} (h : ∀ n ∈ c.columns, isExpr n = false) :
    (keyIdx cur c).cols = plainCols c.columns := idxColsOf_plain _ h

theorem keyFrom_eq {cur : Str} {c : Constraint} (hk : keyConstraint c = true)
    (hd : c.isDeferrable = false) (hv : c.isNotValid = false) (hn : c.constraintName ≠ [])
    (hx : ∀ n ∈ c.columns, isExpr n = false) :
    keyFrom c.constraintName (decide (c.constraintType = b!"PRIMARY KEY")) (plainIdx (keyIdx cur c)) =
      conOf .postgres cur c := by
  have e : idxNames (plainIdx (keyIdx cur c)) = c.columns :=
    idxNames_plain (keyIdx_cols (cur := cur) hx)
  unfold keyFrom conOf
  rw [e, hd, hv]
  simp only [Bool.false_and]
  have : ¬ (c.constraintName = [] ∨ Dialect.postgres = .mysql ∧ c.constraintType = b!"PRIMARY KEY") := by
    rintro (h | h)
    · exact hn h
    · cases h.1
  rw [if_neg this]
  congr 1
  unfold kindOf
  by_cases h : c.constraintType = b!"PRIMARY KEY"
  · simp [h]
  · have h2 : c.constraintType = b!"UNIQUE" := by
      unfold keyConstraint at hk
      simp only [Bool.or_eq_true, beq_iff_eq] at hk
      rcases hk with h3 | h3
      · exact absurd h3 h
      · exact h3
    rw [if_neg h, if_pos h2]
    simp [h]

theorem owns_key {cur : Str} {c : Constraint} (hk : keyConstraint c = true) :
    owns (conOf .postgres cur c) = true := by
  unfold keyConstraint at hk
  simp only [Bool.or_eq_true, beq_iff_eq] at hk
  unfold owns conOf kindOf
  dsimp only
  rcases hk with h | h
  · rw [if_pos (show c.constraintType = b!"PRIMARY KEY" from h)]
  · rw [if_neg (by rw [h]; decide), if_pos (show c.constraintType = b!"UNIQUE" from h)]

/-- The columns after the primary key of a list of constraints is added. -/
def colsAll (cur : Str) (cs : List Constraint) (f : Str → Option Col) : Str → Option Col :=
  cs.foldl (fun f c => colsWith (conOf .postgres cur c) f) f

theorem colsWith_isSome (c : Con) (f : Str → Option Col) (n : Str) :
    (colsWith c f n).isSome = (f n).isSome := by
  cases h : c.kind <;> simp only [colsWith, h]
  unfold notNulls
  split <;> simp

theorem colsAll_isSome (cur : Str) (cs : List Constraint) (f : Str → Option Col) (n : Str) :
    (colsAll cur cs f n).isSome = (f n).isSome := by
  unfold colsAll
  induction cs generalizing f with
  | nil => rfl
  | cons c cs ih => rw [List.foldl_cons, ih, colsWith_isSome]

/-- A column is the same afterwards, or NOT NULL because of one of the primary keys. -/
theorem colsAll_cases (cur : Str) (cs : List Constraint) (f : Str → Option Col) (n : Str) :
    (colsAll cur cs f n = f n ∧ ∀ c ∈ cs, ∀ ps, kindOf .postgres cur c = .primary ps → n ∈ ps →
      ∀ d, f n = some d → d.notNull = true) ∨
    (colsAll cur cs f n = (f n).map (fun c => { c with notNull := true }) ∧
      ∃ c ∈ cs, ∃ ps, kindOf .postgres cur c = .primary ps ∧ n ∈ ps) := by
  unfold colsAll
  induction cs generalizing f with
  | nil => exact Or.inl ⟨rfl, by simp⟩
  | cons c cs ih =>
    rw [List.foldl_cons]
    by_cases hc : ∃ ps, kindOf .postgres cur c = .primary ps ∧ n ∈ ps
    · obtain ⟨ps, h1, h2⟩ := hc
      right
      have e : colsWith (conOf .postgres cur c) f n = (f n).map fun c => { c with notNull := true } := by
        unfold colsWith
        rw [show (conOf .postgres cur c).kind = .primary ps from h1]
        simp [notNulls, h2]
      refine ⟨?_, c, by simp, ps, h1, h2⟩
      rcases ih (colsWith (conOf .postgres cur c) f) with ⟨h3, _⟩ | ⟨h3, _⟩
      · rw [h3, e]
      · rw [h3, e, Option.map_map]; rfl
    · have e : colsWith (conOf .postgres cur c) f n = f n := by
        cases hk : (conOf .postgres cur c).kind with
        | primary ps =>
          simp only [colsWith, hk]
          unfold notNulls
          rw [if_neg]
          intro h
          exact hc ⟨ps, hk, by simpa using h⟩
        | _ => simp only [colsWith, hk]
      rcases ih (colsWith (conOf .postgres cur c) f) with ⟨h3, h4⟩ | ⟨h3, x, h4, h5⟩
      · left
        rw [e] at h3 h4
        refine ⟨h3, ?_⟩
        intro x hx ps hk hn
        rcases List.mem_cons.1 hx with rfl | hx
        · exact absurd ⟨ps, hk, hn⟩ hc
        · exact h4 x hx ps hk hn
      · right
        rw [e] at h3
        exact ⟨h3, x, List.mem_cons_of_mem _ h4, h5⟩

/-- Keys of the new version are added by way of indexes. -/
theorem runs_keys (hG : Consistent G) (hp : Passable S G) (hm : Mid S G db)
    (hg : G.table k = some g) (cur : Str) (nm : DdlText.Name) (hk : key nm = k) :
    ∀ (cs : List Constraint) (t : Tbl), Fits S G k t →
    (∀ c ∈ cs, key (fullName cur c.tableSchema c.tableName) = k) →
    (cs.map fun c => c.constraintName).Nodup →
    (∀ c ∈ cs, t.idx c.constraintName = none ∧ t.con c.constraintName = none ∧
      g.con c.constraintName = some (conOf .postgres cur c) ∧ keyConstraint c = true ∧
      c.isDeferrable = false ∧ c.isNotValid = false ∧ c.constraintName ≠ [] ∧
      ∀ n ∈ c.columns, isExpr n = false ∧ (t.col n).isSome) →
    (∀ m d ds, t.con m = some d → d.kind = .primary ds → g.con m = some d) →
    Runs (db.withTable k t) (cs.flatMap fun c =>
        [.base (.createIndex (keyIdx cur c)),
         .alter nm [.addKeyUsing c.constraintName (decide (c.constraintType = b!"PRIMARY KEY"))
           c.constraintName]])
      (db.withTable k { t with
        con := puts (fun c => c.name.getD []) t.con (cs.map (conOf .postgres cur))
        col := colsAll cur cs t.col }) := by
  intro cs
  induction cs with
  | nil => intro t _ _ _ _ _; rfl
  | cons c cs ih =>
    intro t hft hkey h0 h hpr
    obtain ⟨h1, h2⟩ := List.nodup_cons.1 h0
    obtain ⟨hi, hc, hgc, hkc, hd, hv, hn, hcols⟩ := h c List.mem_cons_self
    have hname : ∀ c : Constraint, c.constraintName ≠ [] → (conOf .postgres cur c).name.getD [] =
        c.constraintName := by
      intro c hn
      unfold conOf
      dsimp only
      rw [if_neg (by rintro (h | h); exact hn h; cases h.1)]
      rfl
    have hex : ∀ n ∈ c.columns, isExpr n = false := fun n hn => (hcols n hn).1
    have hicols : (keyIdx cur c).cols = plainCols c.columns := keyIdx_cols hex
    -- the index
    have htab : (keyIdx cur c).table = some (full cur
        (if c.tableSchema = [] ∨ c.tableSchema = cur then none else some c.tableSchema, c.tableName)) := rfl
    have hkt : key (full cur (if c.tableSchema = [] ∨ c.tableSchema = cur then none
        else some c.tableSchema, c.tableName)) = k := by
      rw [← hkey c List.mem_cons_self]
      unfold full key fullName
      by_cases e1 : c.tableSchema = []
      · simp [e1]
      · by_cases e2 : c.tableSchema = cur
        · simp [e2]
        · simp [e1, e2]
    let t1 : Tbl := { t with idx := put t.idx c.constraintName (some (plainIdx (keyIdx cur c))) }
    have r1 : Runs (db.withTable k t) [.base (.createIndex (keyIdx cur c))] (db.withTable k t1) := by
      refine ⟨⟨_, t, htab, by rw [hkt]; exact withTable_self _ _ _, ?_, ?_⟩, ?_⟩
      · rw [hkt]
        refine (hm.withTable hft).free hG hp (o := .key k.2) ⟨g, _, hg, hgc, owns_key hkc⟩ ?_
        rintro ⟨t', d, h6, h7, _⟩
        rw [show ((k.1, k.2) : Key) = k from rfl, withTable_self] at h6
        cases h6
        rw [show (keyIdx cur c).name = c.constraintName from rfl] at h7
        rw [hc] at h7; cases h7
      · intro y hy
        rw [idxNames_plain hicols] at hy
        rw [show (keyIdx cur c).incl = [] from rfl, List.append_nil] at hy
        exact (hcols y hy).2
      · show effect _ _ = _
        simp only [effect, htab, hkt]
        rw [withTable_self]
        unfold Db.withTable
        rw [Option.map_some, put_put]
        rfl
    -- the key
    have e2 : eff t1 (.addKeyUsing c.constraintName (decide (c.constraintType = b!"PRIMARY KEY"))
        c.constraintName) = { t with
          con := put t.con c.constraintName (some (conOf .postgres cur c))
          col := colsWith (conOf .postgres cur c) t.col } := by
      have : t1.idx c.constraintName = some (plainIdx (keyIdx cur c)) := put_self _ _ _
      simp only [eff, this]
      rw [keyFrom_eq hkc hd hv hn hex]
      show Tbl.mk _ _ _ = Tbl.mk _ _ _
      congr 1
      show put (put t.idx _ _) _ _ = _
      rw [put_put, put_eq hi]
    have r2 : Runs (db.withTable k t1)
        [.alter nm [.addKeyUsing c.constraintName (decide (c.constraintType = b!"PRIMARY KEY"))
           c.constraintName]] (db.withTable k { t with
          con := put t.con c.constraintName (some (conOf .postgres cur c))
          col := colsWith (conOf .postgres cur c) t.col }) := by
      refine runs_steps (as := [.addKeyUsing c.constraintName
        (decide (c.constraintType = b!"PRIMARY KEY")) c.constraintName]) nm hk ⟨⟨rfl, hc, ?_, ?_⟩, e2⟩
      · refine ⟨plainIdx (keyIdx cur c), put_self _ _ _, rfl, ?_, rfl, rfl, ?_⟩
        · show toks .postgres (keyIndex c).predicate = []
          rfl
        · show (keyIdx cur c).cols = plainCols (idxNames (plainIdx (keyIdx cur c)))
          rw [idxNames_plain (x := plainIdx (keyIdx cur c)) hicols, hicols]
      · intro hpk m d ds h3 h4
        have h5 := hpr m d ds h3 h4
        have hpk' : c.constraintType = b!"PRIMARY KEY" := by simpa using hpk
        have h6 : (conOf .postgres cur c).kind = .primary c.columns := by
          unfold conOf kindOf
          rw [if_pos hpk']
        have := hG.primary k g m c.constraintName d _ ds c.columns hg h5 hgc h4 h6
        subst this
        have h3' : t.con c.constraintName = some d := h3
        rw [hc] at h3'
        cases h3'
    have hne : ∀ x ∈ cs, x.constraintName ≠ c.constraintName :=
      fun x hx e => h1 (List.mem_map.2 ⟨x, hx, e⟩)
    have r3 := ih { t with
          con := put t.con c.constraintName (some (conOf .postgres cur c))
          col := colsWith (conOf .postgres cur c) t.col }
      (by
        refine ⟨hft.table, ?_, hft.idx, ?_⟩
        · intro n d ps ref h3 h4
          dsimp only at h3
          by_cases e : n = c.constraintName
          · subst e
            rw [put_self] at h3
            cases h3
            have := owns_notF (owns_key (cur := cur) hkc)
            rw [(isF_iff _).2 ⟨ps, ref, h4⟩] at this
            cases this
          · rw [put_ne _ _ e] at h3; exact hft.fk n d ps ref h3 h4
        · intro n d h3 h4
          dsimp only at h3
          by_cases e : n = c.constraintName
          · subst e
            rw [put_self] at h3
            cases h3
            exact Or.inr ⟨g, _, hg, hgc, h4⟩
          · rw [put_ne _ _ e] at h3; exact hft.key n d h3 h4)
      (fun x hx => hkey x (List.mem_cons_of_mem _ hx)) h2
      (by
        intro x hx
        obtain ⟨q1, q2, q3, q4, q5, q6, q7, q8⟩ := h x (List.mem_cons_of_mem _ hx)
        refine ⟨q1, ?_, q3, q4, q5, q6, q7, fun n hn => ⟨(q8 n hn).1, ?_⟩⟩
        · dsimp only
          rw [put_ne _ _ (hne x hx)]
          exact q2
        · dsimp only
          rw [colsWith_isSome]
          exact (q8 n hn).2)
      (by
        intro m d ds h3 h4
        dsimp only at h3
        by_cases e : m = c.constraintName
        · subst e
          rw [put_self] at h3
          cases h3
          exact hgc
        · rw [put_ne _ _ e] at h3; exact hpr m d ds h3 h4)
    dsimp only at r3
    have ep : puts (fun c => c.name.getD []) (put t.con c.constraintName (some (conOf .postgres cur c)))
        (cs.map (conOf .postgres cur)) =
        puts (fun c => c.name.getD []) t.con ((c :: cs).map (conOf .postgres cur)) := by
      rw [List.map_cons, ← puts_cons (fun c => c.name.getD []) t.con (conOf .postgres cur c)
        (cs.map (conOf .postgres cur)), hname c hn]
      intro hmem
      obtain ⟨d, hd, e⟩ := List.mem_map.1 hmem
      obtain ⟨x, hx, rfl⟩ := List.mem_map.1 hd
      rw [hname c hn, hname x (h x (List.mem_cons_of_mem _ hx)).2.2.2.2.2.2.1] at e
      exact hne x hx e
    rw [ep] at r3
    exact runs_append (runs_append r1 r2) r3

end

end PgSpec
