import Verif.Lemmas.PgAlterTable

/-!
# The changes of a Postgres table lead from one version to the other
-/

namespace PgSpec
open SqlSpec Sqddl DdlText PgText EngineSpec Sqddl.Postgres
open PgText (Act Stmt)
open CatalogSpec (keyConstraint foreignKey liveColumns liveConstraints liveIndexes hasColumn hasIndex
  hasConstraint commonTables TableOk liveTables)

/-- The columns before they are changed. -/
def colsMid (cur coll : Str) (drop : Bool) (s t : Table) : Str → Option Col :=
  puts (fun c => c.name) (without ((lostCols drop s t).map fun c => c.columnName)
    (tblOf cur coll s).col) ((newCols s t).map (colOf .postgres coll false))

section
variable {cur coll : Str} {early drop : Bool} {s t : Table} (h : PairOk cur coll early drop s t)

include h

theorem mem_lostCols (n : Str) : n ∈ ((lostCols drop s t).map fun x => x.columnName) ↔
    drop = true ∧ ∃ x, (liveColumns s).find? (fun c => c.columnName == n) = some x ∧
      (liveColumns t).find? (fun c => c.columnName == n) = none := by
  unfold lostCols
  cases drop with
  | false => simp
  | true =>
    rw [if_pos rfl, mem_filter_names (nm := fun c : Column => c.columnName) (nodup_columns h.src)]
    constructor
    · rintro ⟨x, h1, h2⟩
      refine ⟨rfl, x, h1, ?_⟩
      rw [gone, hasColumn_find, (find_some h1).2] at h2
      simpa using h2
    · rintro ⟨_, x, h1, h2⟩
      refine ⟨x, h1, ?_⟩
      rw [gone, hasColumn_find, (find_some h1).2, h2]
      rfl

theorem colsMid_eq (n : Str) : colsMid cur coll drop s t n =
    match (liveColumns s).find? (fun c => c.columnName == n) with
    | none => ((liveColumns t).find? fun c => c.columnName == n).map (colOf .postgres coll false)
    | some a => if drop && ((liveColumns t).find? fun c => c.columnName == n).isNone then none
      else some (colOf .postgres coll false a) := by
  unfold colsMid
  rw [puts_map (nm := fun c : Column => c.columnName) (colOf .postgres coll false) (by
    intro c hc; rfl)]
  unfold newCols
  rw [find_filter (nm := fun c : Column => c.columnName) (nodup_columns h.dest)]
  have hs : (tblOf cur coll s).col n = ((liveColumns s).find? fun x => x.columnName == n).map
    (colOf .postgres coll false) := rfl
  unfold without
  simp only [mem_lostCols h]
  rw [hs]
  cases hx : (liveColumns s).find? fun c => c.columnName == n with
  | none =>
    cases hy : (liveColumns t).find? fun c => c.columnName == n with
    | none => simp
    | some y =>
      have : hasColumn s y.columnName = false := by rw [hasColumn_find, (find_some hy).2, hx]; rfl
      rw [Option.filter_some, this]
      simp
  | some x =>
    cases hy : (liveColumns t).find? fun c => c.columnName == n with
    | none => cases drop <;> simp
    | some y =>
      have h1 : hasColumn s y.columnName = true := by rw [hasColumn_find, (find_some hy).2, hx]; rfl
      rw [Option.filter_some, h1]
      simp

theorem colsMid_mem {n : Str} {d : Col} (hd : colsMid cur coll drop s t n = some d) :
    ∃ y ∈ liveColumns s ++ liveColumns t, colOf .postgres coll false y = d := by
  rw [colsMid_eq h] at hd
  split at hd
  · obtain ⟨y, hy, rfl⟩ := Option.map_eq_some_iff.1 hd
    exact ⟨y, List.mem_append_right _ (find_some hy).1, rfl⟩
  · rename_i a ha
    split at hd
    · cases hd
    · cases hd
      exact ⟨a, List.mem_append_left _ (find_some ha).1, rfl⟩

theorem find_changedCols (n : Str) :
    (changedCols coll s t).find? (fun q => q.2.columnName == n) =
      match (liveColumns s).find? (fun x => x.columnName == n),
        (liveColumns t).find? (fun x => x.columnName == n) with
      | some a, some b => if columnsAreDifferent .postgres coll a b then some (a, b) else none
      | _, _ => none := find_commonColumns h.dest _ n

end

section
variable {e : Env} {early drop : Bool} {s t : Table} (h : PairOk e.cur e.coll early drop s t)
include h

theorem endCols_isSome (n : Str) :
    (endCols e (changedCols e.coll s t) (colsMid e.cur e.coll drop s t) n).isSome =
      (hasColumn t n || (!drop && hasColumn s n)) := by
  unfold endCols
  rw [find_changedCols h, colsMid_eq h, hasColumn_find, hasColumn_find]
  cases hx : (liveColumns s).find? fun c => c.columnName == n with
  | none =>
    cases hy : (liveColumns t).find? fun c => c.columnName == n <;> simp
  | some x =>
    cases hy : (liveColumns t).find? fun c => c.columnName == n with
    | none => cases drop <;> simp
    | some y =>
      simp only [Option.isNone_some, Bool.and_false, Bool.false_eq_true, if_false, Option.isSome_some,
        Bool.true_or]
      cases columnsAreDifferent .postgres e.coll x y <;> rfl

theorem end_isSome (n : Str) : ((endTbl e drop s t).col n).isSome =
    (hasColumn t n || (!drop && hasColumn s n)) := by
  rw [← endCols_isSome h]
  exact colsAll_isSome _ _ _ _

end

/-- The constraints before their flags are changed. -/
def consMid (cur coll : Str) (drop : Bool) (s t : Table) (DC : List Str) (lT : Str → Bool) :
    Str → Option Con :=
  fun m => (without DC ((tblOf cur coll s).cut lT).con m).filter fun c =>
    !((lostCols drop s t).map fun c => c.columnName).any fun n => conUses n c

theorem consMid_some {cur coll : Str} {drop : Bool} {s t : Table} {DC : List Str} {lT : Str → Bool}
    {n : Str} {d : Con} (hd : consMid cur coll drop s t DC lT n = some d) : n ∉ DC ∧
    ∃ x, (liveConstraints s).find? (fun c => c.constraintName == n) = some x ∧
      conOf .postgres cur x = d ∧ (isF d && lT n) = false := by
  unfold consMid at hd
  obtain ⟨h1, h2⟩ := without_some (Option.filter_eq_some_iff.1 hd).1
  obtain ⟨h3, h4⟩ := cut_con.1 h2
  obtain ⟨x, hx, hx2⟩ := Option.map_eq_some_iff.1 (show ((liveConstraints s).find? fun c =>
    c.constraintName == n).map (conOf .postgres cur) = some d from h3)
  exact ⟨h1, x, hx, hx2, h4⟩

theorem alterCons_some {qs : List Constraint} {f : Str → Option Con} {n : Str} {d : Con}
    (hd : alterCons qs f n = some d) : ∃ c, f n = some c ∧ c.kind = d.kind ∧ c.name = d.name := by
  unfold alterCons at hd
  split at hd
  · obtain ⟨c, hc, rfl⟩ := Option.map_eq_some_iff.1 hd
    exact ⟨c, hc, rfl, rfl⟩
  · exact ⟨d, hd, rfl, rfl⟩

theorem alterCons_none {qs : List Constraint} {f : Str → Option Con} {n : Str} (h : f n = none) :
    alterCons qs f n = none := by
  unfold alterCons
  split
  · rw [h]; rfl
  · exact h

theorem alterCons_valid {qs : List Constraint} {vs : List Column} {f : Str → Option Con}
    (h : ∀ q ∈ qs, ∀ v ∈ vs, q.constraintName ≠ checkName v) :
    alterCons qs (validCons vs f) = validCons vs (alterCons qs f) := by
  funext n
  unfold alterCons validCons
  cases hq : qs.find? fun q => q.constraintName == n with
  | none => simp only [hq]
  | some q =>
    have : vs.find? (fun c => checkName c == n) = none := by
      rw [List.find?_eq_none]
      intro v hv e
      refine h q (List.mem_of_find?_eq_some hq) v hv ?_
      have h1 := List.find?_some hq
      simp only [beq_iff_eq] at h1 e
      rw [h1, e]
    simp only [this, hq]

section
variable {S G db : Db} (hS : Consistent S) (hG : Consistent G) (hp : Passable S G) (hf : SameFkeys S G)
  (hm : Mid S G db) {e : Env} {drop : Bool} {s t : Table} {k : Key}
  (h : PairOk e.cur e.coll (lowerThan e.version [12]) drop s t)
  (hs : S.table k = some (tblOf e.cur e.coll s)) (hg : G.table k = some (endTbl e drop s t))
  (hk : key (fullName e.cur t.tableSchema t.tableName) = k)
  {a : AlterTable} (ha : Changes e drop s t a)

include hg in
theorem lacks_end (n : Str) : lacks G k n = (goalCon e.cur drop s t n).isNone := by
  unfold lacks
  rw [hg]
  rfl

include hs in
theorem lacks_old (n : Str) : lacks S k n =
    ((liveConstraints s).find? fun c => c.constraintName == n).isNone := by
  unfold lacks
  rw [hs]
  show (Option.map _ _).isNone = _
  simp

include h in
/-- The names of the constraints by which columns are made NOT NULL are not those of constraints. -/
theorem check_free {v : Column} (hv : v ∈ toValidate e (changedCols e.coll s t)) :
    hasConstraint s (checkName v) = false ∧ v.tableName = t.tableName := by
  unfold toValidate at hv
  obtain ⟨p, hp, rfl⟩ := List.mem_map.1 hv
  obtain ⟨hp1, hp2⟩ := List.mem_filter.1 hp
  obtain ⟨hp3, hp4⟩ := List.mem_filter.1 hp1
  obtain ⟨m, h1, h2⟩ := (mem_commonColumns_iff h.dest).1 hp3
  have ht := h.columns p.2 (find_some h2).1
  refine ⟨?_, ht⟩
  unfold byCheck at hp2
  simp only [Bool.and_eq_true, Bool.not_eq_true'] at hp2
  have := h.pair.free p hp3 hp2.1.1 hp2.1.2
  unfold checkName
  rw [ht]
  exact this

include hG hp hf hm h hs hg ha in
/-- The parts of the ALTER TABLE statements. -/
theorem steps_alter : Steps db k
    { (tblOf e.cur e.coll s).cut (lacks G k) with
      idx := without ((lostIdxs drop s t).map fun x => x.indexName) (tblOf e.cur e.coll s).idx }
    (alterActs e a ++ a.validateNotNull.flatMap validateActs)
    { col := endCols e (changedCols e.coll s t) (colsMid e.cur e.coll drop s t)
      con := alterCons (flagged s t) (consMid e.cur e.coll drop s t
        (a.dropConstraints.map fun c => c.constraintName) (lacks G k))
      idx := fun m => (without ((lostIdxs drop s t).map fun x => x.indexName)
        (tblOf e.cur e.coll s).idx m).filter fun x =>
          !((lostCols drop s t).map fun c => c.columnName).any fun n => idxUses n x } := by
  let DC := a.dropConstraints.map fun c => c.constraintName
  let L := (lostCols drop s t).map fun c => c.columnName
  let t0 : Tbl := (tblOf e.cur e.coll s).cut (lacks G k)
  let idx1 := without ((lostIdxs drop s t).map fun x => x.indexName) (tblOf e.cur e.coll s).idx
  let idx2 := fun m => (idx1 m).filter fun x => !L.any fun n => idxUses n x
  let con2 := consMid e.cur e.coll drop s t DC (lacks G k)
  let vs := toValidate e (changedCols e.coll s t)
  have f0 : Fits S G k t0 := fits_old hf hs
  have f1 : Fits S G k { t0 with idx := idx1 } :=
    f0.less (fun _ _ h => h) fun n x hx => (without_some hx).2
  -- keys are dropped
  have s1 : Steps db k { t0 with idx := idx1 } (DC.map (.dropConstraint true))
      { t0 with idx := idx1, con := without DC t0.con } := by
    refine steps_dropConstraints hp hm hs hg DC _ f1 ?_
    intro n hn c cols h1 h2
    obtain ⟨h3, h4⟩ := cut_con.1 h1
    obtain ⟨x, hx, hx2⟩ := Option.map_eq_some_iff.1 (show ((liveConstraints s).find? fun c =>
      c.constraintName == n).map (conOf .postgres e.cur) = some c from h3)
    refine ⟨h3, ?_⟩
    have h5 := (ha.dropped n x hx).1 hn
    rw [dropsKey_iff h hx, Bool.and_eq_true, Option.isNone_iff_eq_none] at h5
    exact h5.2
  -- columns are dropped
  have s2 : Steps db k { t0 with idx := idx1, con := without DC t0.con } (L.map .dropColumn)
      { col := without L t0.col, con := con2, idx := idx2 } := by
    refine steps_dropColumns hG hm hg L { t0 with idx := idx1, con := without DC t0.con }
      (f1.less (fun n c hc => (without_some hc).2) fun _ _ h => h) ?_
    intro n hn
    obtain ⟨hd, x, hx, hy⟩ := (mem_lostCols h n).1 hn
    refine ⟨?_, ?_⟩
    · have := end_isSome h n
      rw [hasColumn_find, hy, show (!drop) = false from by rw [hd]; rfl] at this
      simpa using this
    · intro m c hc
      obtain ⟨z, hz, rfl⟩ := Option.map_eq_some_iff.1 (show ((liveColumns s).find? fun c =>
        c.columnName == m).map (colOf .postgres e.coll false) = some c from hc)
      have := (h.pair.mentions hd x (find_some hx).1 (by
        rw [gone, hasColumn_find, (find_some hx).2, hy]; rfl)).2.2 z (find_some hz).1
      rw [(find_some hx).2] at this
      exact this
  -- columns are added
  have s3 : Steps db k { col := without L t0.col, con := con2, idx := idx2 }
      (((newCols s t).map (colOf .postgres e.coll false)).map .addColumn)
      { col := colsMid e.cur e.coll drop s t, con := con2, idx := idx2 } := by
    refine steps_addColumns _ { col := without L t0.col, con := con2, idx := idx2 } ?_ ?_
    · rw [List.map_map]
      exact nodup_filter (nm := fun c : Column => c.columnName) (nodup_columns h.dest) _
    · intro c hc
      obtain ⟨y, hy, rfl⟩ := List.mem_map.1 hc
      obtain ⟨hy1, hy2⟩ := List.mem_filter.1 hy
      rw [Bool.not_eq_true'] at hy2
      refine ⟨?_, h.pair.added y hy1 hy2⟩
      show without L t0.col y.columnName = none
      unfold without
      split
      · rfl
      · show ((liveColumns s).find? fun c => c.columnName == y.columnName).map _ = none
        rw [hasColumn_find] at hy2
        simpa using hy2
  -- columns are changed
  have al : Alterations e.coll (lowerThan e.version [12]) t.tableName
      { col := colsMid e.cur e.coll drop s t, con := con2, idx := idx2 } (changedCols e.coll s t) := by
    have pick : ∀ p ∈ changedCols e.coll s t, p ∈ CatalogSpec.commonColumns s t ∧
        (liveColumns s).find? (fun x => x.columnName == p.2.columnName) = some p.1 ∧
        (liveColumns t).find? (fun x => x.columnName == p.2.columnName) = some p.2 := by
      intro p hp
      obtain ⟨hp1, _⟩ := List.mem_filter.1 hp
      obtain ⟨n, h1, h2⟩ := (mem_commonColumns_iff h.dest).1 hp1
      have : n = p.2.columnName := (find_some h2).2.symm
      subst this
      exact ⟨hp1, h1, h2⟩
    refine ⟨?_, ?_, ?_, ?_, ?_, ?_, ?_⟩
    · intro p hp
      obtain ⟨_, h1, h2⟩ := pick p hp
      show colsMid e.cur e.coll drop s t p.2.columnName = _
      rw [colsMid_eq h, h1, h2]
      simp
    · exact fun p hp => h.pair.columns p (pick p hp).1
    · exact nodup_commonColumns h.dest _
    · exact fun p hp => h.columns p.2 (find_some (pick p hp).2.2).1
    · intro p hp h1 m d hd
      obtain ⟨y, hy, rfl⟩ := colsMid_mem h hd
      exact h.pair.types p (pick p hp).1 h1 y hy
    · intro p hp h1 h2 m d cs hd hkd hmem
      obtain ⟨h3, x, hx, rfl, _⟩ := consMid_some hd
      obtain ⟨hpx, rfl⟩ := kind_primary.1 (show kindOf .postgres e.cur x = .primary cs from hkd)
      have h3' : dropsKey drop s t x = false := by
        rw [Bool.eq_false_iff]
        exact fun h4 => h3 ((ha.dropped m x hx).2 h4)
      rw [dropsKey_iff h hx, primary_isKey hpx, Bool.true_and] at h3'
      cases hy : (liveConstraints t).find? fun c => c.constraintName == m with
      | some y =>
        obtain ⟨e1, e2⟩ := same_primary h hx hy
        have := h.destNotNull y (find_some hy).1 (e1 ▸ hpx) p.2 (find_some (pick p hp).2.2).1
          (e2 hpx ▸ hmem)
        rw [h2] at this; cases this
      | none =>
        unfold goalCon at h3'
        rw [hy, hx] at h3'
        dsimp only at h3'
        rw [hpx, Bool.true_and] at h3'
        rcases h.pair.nullable p (pick p hp).1 h1 h2 with h4 | h4 | h4
        · rw [h4] at h3'; simp at h3'
        · rw [h4] at h3'; simp at h3'
        · exact h4 x (find_some hx).1 hpx hmem
    · intro p hp h1 h2
      have := h.pair.free p (pick p hp).1 h1 h2
      cases hc : con2 (t.tableName ++ b!"_" ++ p.2.columnName ++ b!"_not_null_check") with
      | none => exact hc
      | some d =>
        obtain ⟨_, x, hx, _, _⟩ := consMid_some hc
        rw [hasConstraint_find, hx] at this
        cases this
  have s4 := steps_columns (db := db) (k := k) (changedCols e.coll s t)
    { col := colsMid e.cur e.coll drop s t, con := con2, idx := idx2 } al
  dsimp only at s4
  rw [midCons_eq] at s4
  -- the flags of foreign keys
  have hne : ∀ q ∈ flagged s t, ∀ v ∈ vs, q.constraintName ≠ checkName v := by
    intro q hq v hv e1
    have h1 := (check_free h hv).1
    obtain ⟨p, hp, rfl⟩ := List.mem_map.1 hq
    obtain ⟨m, h2, h3⟩ := (mem_commonConstraints_iff h.dest).1 (List.mem_filter.1 hp).1
    rw [hasConstraint_find, ← e1, (find_some h3).2, h2] at h1
    cases h1
  have hfl : ∀ q ∈ flagged s t, (∃ c cs ref, con2 q.constraintName = some c ∧
      c.kind = .foreign cs ref) ∧ (q.isInitiallyDeferred = true → q.isDeferrable = true) := by
    intro q hq
    obtain ⟨p, hp, rfl⟩ := List.mem_map.1 hq
    obtain ⟨hp1, hp2⟩ := List.mem_filter.1 hp
    obtain ⟨m, h2, h3⟩ := (mem_commonConstraints_iff h.dest).1 hp1
    have hc := h.pair.constraints p hp1
    rcases hc.flags with hc1 | ⟨hc1, hc2⟩
    · exfalso
      unfold flagsDiffer at hp2
      simp [hc1.1, hc1.2] at hp2
    · refine ⟨?_, hc2⟩
      have hm2 : m = p.2.constraintName := (find_some h3).2.symm
      subst hm2
      obtain ⟨cs, ref, hkf⟩ := (isF_iff (conOf .postgres e.cur p.2)).1 (by rw [isF_conOf]; exact hc1)
      have hfx : kindOf .postgres e.cur p.1 = .foreign cs ref := by rw [hc.kind]; exact hkf
      have hgc : goalCon e.cur drop s t p.2.constraintName = some (conOf .postgres e.cur p.2) := by
        unfold goalCon; rw [h3]
      have hkx : keyConstraint p.1 = false := by
        have h5 : foreignKey p.1 = true := by
          rw [← isF_conOf (d := .postgres) e.cur p.1]
          exact (isF_iff _).2 ⟨cs, ref, hfx⟩
        cases h6 : keyConstraint p.1 with
        | false => rfl
        | true => rw [key_not_foreign h6] at h5; cases h5
      refine ⟨conOf .postgres e.cur p.1, cs, ref, ?_, hfx⟩
      show consMid e.cur e.coll drop s t DC (lacks G k) _ = _
      unfold consMid without
      rw [if_neg, Option.filter_eq_some_iff]
      · refine ⟨?_, ?_⟩
        · rw [cut_con]
          refine ⟨?_, ?_⟩
          · show ((liveConstraints s).find? fun c => c.constraintName == p.2.constraintName).map _ = _
            rw [h2]; rfl
          · rw [lacks_end hg, hgc]; simp
        · rw [Bool.not_eq_true', Bool.eq_false_iff]
          intro h5
          obtain ⟨n, hn, h6⟩ := List.any_eq_true.1 h5
          obtain ⟨c, hc', rfl⟩ := List.mem_map.1 hn
          unfold lostCols at hc'
          split at hc'
          · rename_i hd
            obtain ⟨hc3, hc4⟩ := List.mem_filter.1 hc'
            have := (h.pair.mentions hd c hc3 hc4).1 p.1 (find_some h2).1 (by
              rw [hasConstraint_find, (find_some h2).2, h3]; rfl)
            rw [h6] at this; cases this
          · cases hc'
      · intro hmem
        have := (ha.dropped _ _ h2).1 hmem
        rw [dropsKey_iff h h2, hkx] at this
        cases this
  have s5 := steps_alterConstraints (db := db) (k := k) (flagged s t)
    { col := midCols e (changedCols e.coll s t) (colsMid e.cur e.coll drop s t)
      con := validCons vs con2, idx := idx2 } (nodup_flagged h) (by
      intro q hq
      obtain ⟨h1, h2⟩ := hfl q hq
      refine ⟨?_, h2⟩
      have : validCons vs con2 q.constraintName = con2 q.constraintName := by
        unfold validCons
        have : vs.find? (fun c => checkName c == q.constraintName) = none := by
          rw [List.find?_eq_none]
          intro v hv e1
          simp only [beq_iff_eq] at e1
          exact hne q hq v hv e1.symm
        rw [this]
      dsimp only
      rw [this]
      exact h1)
  dsimp only at s5
  rw [alterCons_valid hne] at s5
  -- columns become NOT NULL
  have s6 := steps_validate (db := db) (k := k) (n := t.tableName) vs (alterCons (flagged s t) con2)
    { col := midCols e (changedCols e.coll s t) (colsMid e.cur e.coll drop s t)
      con := validCons vs (alterCons (flagged s t) con2), idx := idx2 }
    (by
      have := nodup_commonColumns (s := s) h.dest fun p => columnsAreDifferent .postgres e.coll p.1 p.2
      refine this.sublist ?_
      show List.Sublist (((List.filter _ _).map _).map _) _
      rw [List.map_map]
      exact List.filter_sublist.map _)
    (fun v hv => (check_free h hv).2)
    (by
      intro v hv
      unfold vs toValidate at hv
      obtain ⟨p, hp, rfl⟩ := List.mem_map.1 hv
      dsimp only
      rw [midCols_mem (ps := changedCols e.coll s t) (nodup_commonColumns h.dest _) (List.mem_filter.1 hp).1]
      rfl)
    (by
      intro v hv
      refine alterCons_none ?_
      have h1 := (check_free h hv).1
      cases hc : con2 (checkName v) with
      | none => rfl
      | some d =>
        obtain ⟨_, x, hx, _, _⟩ := consMid_some hc
        rw [hasConstraint_find, hx] at h1
        cases h1)
    rfl
  dsimp only at s6
  rw [show validCols vs (midCols e (changedCols e.coll s t) (colsMid e.cur e.coll drop s t)) =
    endCols e (changedCols e.coll s t) (colsMid e.cur e.coll drop s t) from
    endCols_eq (nodup_commonColumns h.dest _) _] at s6
  -- all of it
  have e1 : alterActs e a ++ a.validateNotNull.flatMap validateActs =
      DC.map (.dropConstraint true) ++ L.map .dropColumn ++
      ((newCols s t).map (colOf .postgres e.coll false)).map .addColumn ++
      (changedCols e.coll s t).flatMap (columnActs e) ++
      ((flagged s t).map fun q =>
        .alterConstraint q.constraintName q.isDeferrable q.isInitiallyDeferred) ++
      vs.flatMap validateActs := by
    unfold alterActs
    rw [ha.dropColumns, ha.addColumns, ha.alterColumns, ha.validate, ← ha.alterConstraints]
    simp only [DC, L, vs, List.map_map]
    rfl
  rw [e1]
  exact ((((s1.append s2).append s3).append s4).append s5).append s6

include hS hG hp hf hm h hs hg hk ha in
/-- The statements for a table lead from what is left of the old version to the new one without its
new foreign keys. -/
theorem runs_alter : Runs (db.withTable k ((tblOf e.cur e.coll s).cut (lacks G k))) (alterOf e a)
    (db.withTable k ((endTbl e drop s t).cut (lacks S k))) := by
  let DC := a.dropConstraints.map fun c => c.constraintName
  let idx1 := without ((lostIdxs drop s t).map fun x => x.indexName) (tblOf e.cur e.coll s).idx
  let idx2 := fun m => (idx1 m).filter fun x =>
    !((lostCols drop s t).map fun c => c.columnName).any fun n => idxUses n x
  let con4 := alterCons (flagged s t) (consMid e.cur e.coll drop s t DC (lacks G k))
  let col4 := endCols e (changedCols e.coll s t) (colsMid e.cur e.coll drop s t)
  have f0 : Fits S G k ((tblOf e.cur e.coll s).cut (lacks G k)) := fits_old hf hs
  have hnone : ∀ n, n ∈ ((lostIdxs drop s t).map fun x => x.indexName) →
      (endTbl e drop s t).idx n = none ∧ ((tblOf e.cur e.coll s).idx n).isSome := by
    intro n hn
    obtain ⟨hd, x, hx, hy⟩ := (mem_lostIdxs h n).1 hn
    refine ⟨?_, ?_⟩
    · show newer drop (((liveIndexes s).find? fun c => c.indexName == n).map _)
        (((liveIndexes t).find? fun c => c.indexName == n).map _) = none
      rw [hy, hd]; rfl
    · show (((liveIndexes s).find? fun c => c.indexName == n).map _).isSome
      rw [hx]; rfl
  -- indexes are dropped
  have r1 := runs_dropIndexes hS hp hm hs hg (fun x : Index => fullName e.cur x.tableSchema x.indexName)
    (lostIdxs drop s t) _ f0 (by
      intro x hx
      have hxs : x ∈ liveIndexes s := by
        unfold lostIdxs at hx
        split at hx
        · exact (List.mem_filter.1 hx).1
        · cases hx
      rw [← hk]
      unfold key fullName
      dsimp only
      rw [h.srcIndexes x (List.mem_filter.1 hxs).1, h.same.1])
    (fun x hx => (hnone _ (List.mem_map.2 ⟨x, hx, rfl⟩)).2) (fun _ _ h => h)
    (fun x hx => (hnone _ (List.mem_map.2 ⟨x, hx, rfl⟩)).1)
  -- the ALTER TABLE statements
  have r2 := runs_steps (fullName e.cur t.tableSchema t.tableName) hk
    (steps_alter hG hp hf hm h hs hg ha)
  -- where this leads to
  have fkey : ∀ n d, con4 n = some d → ∃ c, ((tblOf e.cur e.coll s).cut (lacks G k)).con n = some c ∧
      c.kind = d.kind := by
    intro n d hd
    obtain ⟨c, hc, h1, h2⟩ := alterCons_some hd
    exact ⟨c, (without_some (Option.filter_eq_some_iff.1 hc).1).2, h1⟩
  have f4 : Fits S G k { col := col4, con := con4, idx := idx2 } := by
    refine ⟨f0.table, ?_, ?_, ?_⟩
    · intro n d cs ref h1 h2
      obtain ⟨c, hc, hk1⟩ := fkey n d h1
      exact f0.fk n c cs ref hc (hk1.trans h2)
    · intro n x hx
      exact f0.idx n x (without_some (Option.filter_eq_some_iff.1 hx).1).2
    · intro n d h1 h2
      obtain ⟨c, hc, hk1⟩ := fkey n d h1
      exact f0.key n c hc (by unfold owns at h2 ⊢; rw [hk1]; exact h2)
  have hcol : ∀ n, ((endTbl e drop s t).col n).isSome → (col4 n).isSome := by
    intro n hn
    rw [end_isSome h] at hn
    show (endCols _ _ _ n).isSome
    rw [endCols_isSome h]
    exact hn
  -- indexes are created
  have hidx : ∀ x ∈ newIdxs s t, idx2 x.indexName = none ∧
      (endTbl e drop s t).idx x.indexName = some (idxOf .postgres e.cur false true x) := by
    intro x hx
    obtain ⟨hx1, hx2⟩ := List.mem_filter.1 hx
    rw [Bool.not_eq_true', hasIndex_find] at hx2
    refine ⟨?_, ?_⟩
    · have : idx1 x.indexName = none := by
        show without _ _ _ = none
        unfold without
        split
        · rfl
        · show ((liveIndexes s).find? fun c => c.indexName == x.indexName).map _ = none
          simpa using hx2
      show (idx1 x.indexName).filter _ = none
      rw [this]; rfl
    · show newer drop _ (((liveIndexes t).find? fun c => c.indexName == x.indexName).map _) = _
      rw [show (liveIndexes t).find? (fun c => c.indexName == x.indexName) = some x from
        find?_self (k := fun c : Index => c.indexName) (nodup_indexes h.dest) hx1]
      rfl
  have r3 := runs_createIndexes hG hp hm hg
    ((newIdxs s t).map fun x => (idxOf .postgres e.cur true false x).resolve e.cur)
    { col := col4, con := con4, idx := idx2 } f4
    (by
      intro x hx
      obtain ⟨y, hy, rfl⟩ := List.mem_map.1 hx
      have hyt := h.destIndexes y (List.mem_filter.1 (List.mem_filter.1 hy).1).1
      refine ⟨_, rfl, ?_⟩
      rw [← hk]
      show key (full e.cur (if y.tableSchema = [] ∨ y.tableSchema = e.cur then none else
        some y.tableSchema, y.tableName)) = _
      rw [hyt.1, hyt.2]
      unfold full key fullName
      by_cases e1 : t.tableSchema = []
      · simp [e1]
      · by_cases e2 : t.tableSchema = e.cur
        · simp [e2]
        · simp [e1, e2])
    (by
      rw [List.map_map]
      exact nodup_filter (nm := fun c : Index => c.indexName) (nodup_indexes h.dest) _)
    (by
      intro x hx
      obtain ⟨y, hy, rfl⟩ := List.mem_map.1 hx
      exact (hidx y hy).1)
    (by
      intro x hx
      obtain ⟨y, hy, rfl⟩ := List.mem_map.1 hx
      exact ⟨_, (hidx y hy).2⟩)
    (by
      intro x hx y hy
      obtain ⟨z, hz, rfl⟩ := List.mem_map.1 hx
      exact hcol y (hG.idx k _ z.indexName _ hg (hidx z hz).2 y hy))
  -- keys are added
  have ce := con_end (DC := DC) (lT := lacks G k) (lS := lacks S k) h ha.dropped (lacks_end hg)
    (lacks_old hs)
  have hkeys : ∀ c ∈ newKeys s t, (liveConstraints s).find? (fun x => x.constraintName == c.constraintName)
      = none := by
    intro c hc
    obtain ⟨_, hc2⟩ := List.mem_filter.1 hc
    rw [Bool.and_eq_true, Bool.not_eq_true', hasConstraint_find] at hc2
    simpa using hc2.2
  have hcon4 : ∀ n d, con4 n = some d → ∃ x, (liveConstraints s).find?
      (fun c => c.constraintName == n) = some x := by
    intro n d hd
    obtain ⟨c, hc, _⟩ := alterCons_some hd
    obtain ⟨_, x, hx, _⟩ := consMid_some hc
    exact ⟨x, hx⟩
  have hgc : ∀ c ∈ newKeys s t, (endTbl e drop s t).con c.constraintName =
      some (conOf .postgres e.cur c) := by
    intro c hc
    show goalCon e.cur drop s t c.constraintName = _
    unfold goalCon
    rw [show (liveConstraints t).find? (fun x => x.constraintName == c.constraintName) = some c from
      find?_self (k := fun c : Constraint => c.constraintName) (nodup_constraints h.dest)
        (List.mem_filter.1 hc).1]
  have r4 := runs_keys hG hp hm hg e.cur (fullName e.cur t.tableSchema t.tableName) hk (newKeys s t)
    { col := col4, con := con4, idx := puts (fun x => x.name) idx2
        (((newIdxs s t).map fun x => (idxOf .postgres e.cur true false x).resolve e.cur).map plainIdx) }
    (by
      refine ⟨f4.table, f4.fk, ?_, f4.key⟩
      intro n x hx
      dsimp only at hx
      unfold puts at hx
      split at hx
      · rename_i y hy
        cases hx
        have h1 := List.mem_of_find?_eq_some hy
        have h2 := List.find?_some hy
        simp only [beq_iff_eq] at h2
        obtain ⟨z, hz, rfl⟩ := List.mem_map.1 h1
        obtain ⟨w, hw, rfl⟩ := List.mem_map.1 hz
        right
        rw [← h2]
        exact ⟨_, _, hg, (hidx w hw).2⟩
      · exact f4.idx n x hx)
    (by
      intro c hc
      obtain ⟨h1, h2⟩ := h.constraints c (List.mem_filter.1 hc).1
      rw [h1, h2, hk])
    (nodup_filter (nm := fun c : Constraint => c.constraintName) (nodup_constraints h.dest) _)
    (by
      intro c hc
      obtain ⟨hc1, hc2⟩ := List.mem_filter.1 hc
      rw [Bool.and_eq_true, Bool.not_eq_true'] at hc2
      obtain ⟨hk1, hk2, hk3⟩ := h.pair.keys c hc1 hc2.1 hc2.2
      have hG1 : Has G k.1 c.constraintName (.key k.2) := ⟨_, _, hg, hgc c hc, owns_key hc2.1⟩
      refine ⟨?_, ?_, hgc c hc, hc2.1, hk1, hk2, named h.dest hc1, ?_⟩
      · dsimp only
        cases hi : puts (fun x => x.name) idx2 (((newIdxs s t).map fun x =>
            (idxOf .postgres e.cur true false x).resolve e.cur).map plainIdx) c.constraintName with
        | none => rfl
        | some x =>
          exfalso
          unfold puts at hi
          split at hi
          · rename_i y hy
            have h1 := List.mem_of_find?_eq_some hy
            have h2 := List.find?_some hy
            simp only [beq_iff_eq] at h2
            obtain ⟨z, hz, rfl⟩ := List.mem_map.1 h1
            obtain ⟨w, hw, rfl⟩ := List.mem_map.1 hz
            have h3 : Has G k.1 c.constraintName (.index k.2) := by
              rw [← h2]; exact ⟨_, _, hg, (hidx w hw).2⟩
            cases hG.names _ _ _ _ h3 hG1
          · rcases f4.idx _ _ hi with h1 | h1
            · cases hp.names _ _ _ _ h1 hG1
            · cases hG.names _ _ _ _ h1 hG1
      · dsimp only
        cases hd : con4 c.constraintName with
        | none => rfl
        | some d =>
          obtain ⟨x, hx⟩ := hcon4 _ d hd
          rw [hkeys c hc] at hx; cases hx
      · intro n hn
        refine ⟨hk3 n hn, hcol n (hG.con k _ c.constraintName _ hg (hgc c hc) n ?_)⟩
        show n ∈ ConKind.cols (kindOf .postgres e.cur c)
        have hc3 := hc2.1
        unfold keyConstraint at hc3
        simp only [Bool.or_eq_true, beq_iff_eq] at hc3
        unfold kindOf
        rcases hc3 with h1 | h1
        · rw [if_pos (show c.constraintType = b!"PRIMARY KEY" from h1)]; exact hn
        · rw [if_neg (by rw [h1]; decide), if_pos (show c.constraintType = b!"UNIQUE" from h1)]; exact hn)
    (by
      intro m d ds hd _
      dsimp only at hd
      obtain ⟨x, hx⟩ := hcon4 m d hd
      have h1 := ce m
      rw [puts_map (nm := fun c : Constraint => c.constraintName) (conOf .postgres e.cur) (by
        intro c hc
        rw [conOf_name (named h.dest (List.mem_filter.1 hc).1)]; rfl)] at h1
      have h2 : (newKeys s t).find? (fun c => c.constraintName == m) = none := by
        rw [List.find?_eq_none]
        intro c hc e1
        simp only [beq_iff_eq] at e1
        have := hkeys c hc
        rw [e1, hx] at this
        cases this
      rw [h2] at h1
      dsimp only at h1
      have h3 : (goalCon e.cur drop s t m).filter (fun c => !(isF c && lacks S k m)) = some d := by
        rw [h1]; exact hd
      exact (Option.filter_eq_some_iff.1 h3).1)
  -- all of it
  have e2 : (endTbl e drop s t).cut (lacks S k) =
      { col := colsAll e.cur (newKeys s t) col4
        con := puts (fun c => c.name.getD []) con4 ((newKeys s t).map (conOf .postgres e.cur))
        idx := puts (fun x => x.name) idx2 (((newIdxs s t).map fun x =>
          (idxOf .postgres e.cur true false x).resolve e.cur).map plainIdx) } := by
    unfold Tbl.cut
    congr 1
    · funext n
      exact ce n
    · funext n
      have := idx_end (coll := e.coll) h n
      rw [List.map_map]
      exact this
  rw [e2]
  have e3 : alterOf e a =
      (lostIdxs drop s t).map (fun x => .dropIndex (fullName e.cur x.tableSchema x.indexName)) ++
      (alterActs e a ++ a.validateNotNull.flatMap validateActs).map (fun a =>
        .alter (fullName e.cur t.tableSchema t.tableName) [a]) ++
      ((newIdxs s t).map fun x => (idxOf .postgres e.cur true false x).resolve e.cur).map
        (fun x => .base (.createIndex x)) ++
      (newKeys s t).flatMap fun c =>
        [.base (.createIndex (keyIdx e.cur c)),
         .alter (fullName e.cur t.tableSchema t.tableName)
           [.addKeyUsing c.constraintName (decide (c.constraintType = b!"PRIMARY KEY"))
             c.constraintName]] := by
    unfold Postgres.alterOf
    rw [ha.destTable, ha.dropIndexes, ha.createIndexes, ha.addConstraints, List.map_append,
      List.map_flatMap, List.map_map]
    simp only [List.append_assoc]
    rfl
  rw [e3]
  exact runs_append (runs_append (runs_append r1 r2) r3) r4

include h hs hg ha in
/-- A table that is not to be changed stays as it is. -/
theorem alter_nothing (hw : a.worthKeeping = false) :
    (tblOf e.cur e.coll s).cut (lacks G k) = (endTbl e drop s t).cut (lacks S k) := by
  unfold AlterTable.worthKeeping at hw
  simp only [Bool.or_eq_false_iff, Bool.not_eq_false', List.isEmpty_iff] at hw
  obtain ⟨⟨⟨⟨⟨⟨w1, w2⟩, w3⟩, w4⟩, w5⟩, w6⟩, w7⟩ := hw
  have i1 : lostIdxs drop s t = [] := by rw [← ha.dropIndexes, w2]
  have i2 : newCols s t = [] := by rw [← ha.addColumns, w3]
  have i3 : changedCols e.coll s t = [] := by rw [← ha.alterColumns, w4]
  have i4 : flagged s t = [] := by rw [← ha.alterConstraints, w5]; rfl
  have i5 : newIdxs s t = [] := by rw [← ha.createIndexes, w6]
  have i6 : newKeys s t = [] := by rw [← ha.addConstraints, w7]
  have hd := ha.dropped
  rw [w1] at hd
  have i7 : lostCols drop s t = [] := by
    cases hL : lostCols drop s t with
    | nil => rfl
    | cons y r =>
      exfalso
      have hy : y ∈ lostCols drop s t := by rw [hL]; exact List.mem_cons_self
      have hL2 : drop = true ∧ y ∈ liveColumns s ∧ gone t y = true := by
        unfold lostCols at hy
        split at hy
        · exact ⟨by assumption, List.mem_filter.1 hy⟩
        · cases hy
      obtain ⟨hdr, hy1, hy2⟩ := hL2
      rcases h.pair.surplusColumns hdr ⟨y, hy1, hy2⟩ with ⟨x, hx, h1⟩ | ⟨x, hx, h1⟩ | ⟨x, hx, h1, h2⟩ |
        ⟨q, hq, h1⟩ | ⟨_, ⟨x, hx, h1⟩ | ⟨x, hx, h1, h2⟩⟩
      · have : x ∈ newCols s t := List.mem_filter.2 ⟨hx, by rw [h1]; rfl⟩
        rw [i2] at this; cases this
      · have : x ∈ newIdxs s t := List.mem_filter.2 ⟨hx, by rw [h1]; rfl⟩
        rw [i5] at this; cases this
      · have : x ∈ newKeys s t := List.mem_filter.2 ⟨hx, by rw [h1, h2]; rfl⟩
        rw [i6] at this; cases this
      · have : q.2 ∈ flagged s t := List.mem_map.2 ⟨q, List.mem_filter.2 ⟨hq, by
          unfold flagsDiffer
          rw [Bool.or_eq_true]
          left
          simpa using h1⟩, rfl⟩
        rw [i4] at this; cases this
      · have : x ∈ lostIdxs drop s t := by
          unfold lostIdxs
          rw [if_pos hdr]
          exact List.mem_filter.2 ⟨hx, by rw [h1]; rfl⟩
        rw [i1] at this; cases this
      · have := (hd x.constraintName x (find?_self (k := fun c : Constraint => c.constraintName)
          (nodup_constraints h.src) hx)).2 (by unfold dropsKey; rw [h1, h2, hdr]; rfl)
        cases this
  have ce := con_end (DC := []) (lT := lacks G k) (lS := lacks S k) h hd (lacks_end hg) (lacks_old hs)
  have ie := idx_end (coll := e.coll) h
  rw [i4, i6, i7] at ce
  rw [i1, i5, i7] at ie
  have c1 : (endTbl e drop s t).col = (tblOf e.cur e.coll s).col := by
    show colsAll e.cur (newKeys s t) (endCols e (changedCols e.coll s t) (puts _ (without
      ((lostCols drop s t).map _) _) ((newCols s t).map _))) = _
    rw [i2, i3, i6, i7, List.map_nil, List.map_nil, without_nil]
    rfl
  unfold Tbl.cut
  rw [c1]
  congr 1
  · funext n
    refine Eq.trans ?_ (ce n).symm
    unfold puts alterCons
    simp only [List.map_nil, List.find?_nil, without_nil, List.any_nil, Bool.not_false, filter_true]
    rfl
  · funext n
    refine Eq.trans ?_ (ie n).symm
    unfold puts
    simp only [List.map_nil, List.find?_nil, without_nil, List.any_nil, Bool.not_false, filter_true]

end

end PgSpec
