import Verif.Lemmas.PgAlterRuns
import Verif.Props.MysqlConverges

/-!
# Where the changes of a Postgres table lead to
-/

namespace PgSpec
open SqlSpec Sqddl DdlText PgText EngineSpec Sqddl.Postgres
open PgText (Act Stmt)
open CatalogSpec (keyConstraint foreignKey liveColumns liveConstraints liveIndexes hasColumn hasIndex
  hasConstraint commonTables TableOk liveTables hasTable hasSchema hasTableConstraint)

section
variable {e : Env} {drop : Bool} {s t : Table}
  (h : PairOk e.cur e.coll (lowerThan e.version [12]) drop s t)
include h

theorem endCols_at (n : Str) :
    endCols e (changedCols e.coll s t) (colsMid e.cur e.coll drop s t) n =
      match (liveColumns s).find? (fun c => c.columnName == n) with
      | none => ((liveColumns t).find? fun c => c.columnName == n).map (colOf .postgres e.coll false)
      | some a =>
        match (liveColumns t).find? (fun c => c.columnName == n) with
        | none => if drop then none else some (colOf .postgres e.coll false a)
        | some b => some (if columnsAreDifferent .postgres e.coll a b then endCol e a b
            else colOf .postgres e.coll false a) := by
  unfold endCols
  rw [find_changedCols h, colsMid_eq h]
  cases hx : (liveColumns s).find? fun c => c.columnName == n with
  | none => cases hy : (liveColumns t).find? fun c => c.columnName == n <;> rfl
  | some x =>
    cases hy : (liveColumns t).find? fun c => c.columnName == n with
    | none => cases drop <;> rfl
    | some y =>
      dsimp only
      cases columnsAreDifferent .postgres e.coll x y <;> simp

/-- A column of both versions. -/
theorem common_reached {n : Str} {a b : Column}
    (h1 : (liveColumns s).find? (fun c => c.columnName == n) = some a)
    (h2 : (liveColumns t).find? (fun c => c.columnName == n) = some b) :
    ∃ c, (endTbl e drop s t).col n = some c ∧ ColumnReached e.coll a b c := by
  have hp : (a, b) ∈ CatalogSpec.commonColumns s t := (mem_commonColumns_iff h.dest).2 ⟨n, h1, h2⟩
  have hal := h.pair.columns _ hp
  have hbn := (find_some h2).2
  have hf := endCols_at h n
  rw [h1, h2] at hf
  dsimp only at hf
  have key : ∀ x ∈ newKeys s t, ∀ ps, kindOf .postgres e.cur x = .primary ps → n ∈ ps →
      b.isNotNull = true := by
    intro x hx ps hk hn
    obtain ⟨h3, rfl⟩ := kind_primary.1 hk
    exact h.destNotNull x (List.mem_filter.1 hx).1 h3 b (find_some h2).1 (hbn ▸ hn)
  have nn : ∀ {c : Col} {a' : Column}, ColumnReached e.coll a' b c → b.isNotNull = true →
      ColumnReached e.coll a' b { c with notNull := true } := by
    intro c a' hc hb
    exact ⟨hc.name, hc.type, hb.symm, hc.identity, hc.default, hc.collation, hc.generated⟩
  have hcases := colsAll_cases e.cur (newKeys s t)
    (endCols e (changedCols e.coll s t) (colsMid e.cur e.coll drop s t)) n
  rw [hf] at hcases
  have hend : (endTbl e drop s t).col n = colsAll e.cur (newKeys s t)
    (endCols e (changedCols e.coll s t) (colsMid e.cur e.coll drop s t)) n := rfl
  rw [hend]
  by_cases hq : columnsAreDifferent .postgres e.coll a b = false → b.isPrimaryKey = true →
      a.isNotNull = b.isNotNull
  · have hr : ColumnReached e.coll a b (if columnsAreDifferent .postgres e.coll a b then endCol e a b
        else colOf .postgres e.coll false a) := by
      split
      · exact endCol_reached hal
      · rename_i hd
        rw [Bool.not_eq_true] at hd
        exact unchanged_reached hal hd (hq hd)
    rcases hcases with ⟨h3, _⟩ | ⟨h3, x, hx, ps, hk, hn⟩
    · exact ⟨_, h3, hr⟩
    · exact ⟨_, h3, nn hr (key x hx ps hk hn)⟩
  · -- a column of a new primary key, which is NOT NULL from then on
    rw [Classical.not_imp, Classical.not_imp] at hq
    obtain ⟨hd, hpk, hne⟩ := hq
    obtain ⟨x, hx, hxp, hxn⟩ := h.flags b (find_some h2).1 hpk
    have hb : b.isNotNull = true := h.destNotNull x hx hxp b (find_some h2).1 hxn
    have ha : a.isNotNull = false := by
      cases e1 : a.isNotNull with
      | false => rfl
      | true => rw [e1, hb] at hne; exact absurd rfl hne
    have hxs : hasConstraint s x.constraintName = false := by
      rw [hasConstraint_find]
      cases h3 : (liveConstraints s).find? fun c => c.constraintName == x.constraintName with
      | none => rfl
      | some y =>
        obtain ⟨e1, e2⟩ := same_primary h h3
          (find?_self (k := fun c : Constraint => c.constraintName) (nodup_constraints h.dest) hx)
        have hyp : primaryKey y = true := e1.trans hxp
        have := h.srcNotNull y (find_some h3).1 hyp a (find_some h1).1 (by
          rw [e2 hyp, (find_some h1).2, ← hbn]; exact hxn)
        rw [ha] at this; cases this
    have hxk : x ∈ newKeys s t := List.mem_filter.2 ⟨hx, by rw [primary_isKey hxp, hxs]; rfl⟩
    rw [if_neg (by rw [hd]; simp)] at hcases
    rcases hcases with ⟨_, h3⟩ | ⟨h3, _⟩
    · have := h3 x hxk x.columns (kind_primary.2 ⟨hxp, rfl⟩) (hbn ▸ hxn) _ rfl
      simp [colOf, ha] at this
    · refine ⟨_, h3, ?_⟩
      have hal' : Alterable e.coll (lowerThan e.version [12]) { a with isNotNull := true } b :=
        ⟨hal.name, hal.domain, hal.generated, hal.computed, hal.casts, hal.default,
          fun h4 => ⟨rfl, (hal.oldIdentity h4).2⟩, hal.newIdentity, fun _ _ => Or.inl rfl, hal.lost,
          hal.collation⟩
      have hd' : columnsAreDifferent .postgres e.coll { a with isNotNull := true } b = false := by
        unfold columnsAreDifferent at hd ⊢
        simp only [hpk] at hd ⊢
        simpa using hd
      have hr := unchanged_reached hal' hd' (fun _ => hb.symm)
      exact ⟨hr.name, hr.type, hb.symm, hr.identity, hr.default, hr.collation, hr.generated⟩

/-- The table is what the migration aims at. -/
theorem endTbl_reached :
    TableReached e.coll s t (endTbl e drop s t) (goalTbl e.cur e.coll drop s t) where
  con := rfl
  idx := rfl
  col := by
    intro n
    have hf := endCols_at h n
    have hcases := colsAll_cases e.cur (newKeys s t)
      (endCols e (changedCols e.coll s t) (colsMid e.cur e.coll drop s t)) n
    have hend : (endTbl e drop s t).col n = colsAll e.cur (newKeys s t)
      (endCols e (changedCols e.coll s t) (colsMid e.cur e.coll drop s t)) n := rfl
    have hgoal : (goalTbl e.cur e.coll drop s t).col n = newer drop
        (((liveColumns s).find? fun x => x.columnName == n).map (colOf .postgres e.coll false))
        (((liveColumns t).find? fun x => x.columnName == n).map (colOf .postgres e.coll false)) := rfl
    have hkey : ∀ x ∈ newKeys s t, ∀ ps, kindOf .postgres e.cur x = .primary ps → n ∈ ps →
        ∃ b, (liveColumns t).find? (fun x => x.columnName == n) = some b ∧ b.isNotNull = true := by
      intro x hx ps hk hn
      obtain ⟨h3, rfl⟩ := kind_primary.1 hk
      have hx' := (List.mem_filter.1 hx).1
      have h4 := h.keyColumns x hx' h3 n hn
      rw [hasColumn_find] at h4
      obtain ⟨b, hb⟩ := Option.isSome_iff_exists.1 h4
      exact ⟨b, hb, h.destNotNull x hx' h3 b (find_some hb).1 ((find_some hb).2 ▸ hn)⟩
    cases h1 : (liveColumns s).find? fun x => x.columnName == n with
    | none =>
      left
      rw [h1] at hf hgoal
      dsimp only at hf
      rw [hend, hgoal]
      cases h2 : (liveColumns t).find? fun x => x.columnName == n with
      | none =>
        rw [h2] at hf
        rcases hcases with ⟨h3, _⟩ | ⟨h3, _⟩
        · rw [h3, hf]; cases drop <;> rfl
        · rw [h3, hf]; cases drop <;> rfl
      | some b =>
        rw [h2] at hf
        rcases hcases with ⟨h3, _⟩ | ⟨h3, x, hx, ps, hk, hn⟩
        · rw [h3, hf]; rfl
        · rw [h3, hf]
          obtain ⟨b', hb, hb'⟩ := hkey x hx ps hk hn
          rw [h2] at hb
          cases hb
          show some _ = some _
          congr 1
          have : (colOf .postgres e.coll false b).notNull = true := by
            show (b.isNotNull && !computed .postgres b) = true
            rw [hb']; rfl
          rw [← this]
    | some a =>
      cases h2 : (liveColumns t).find? fun x => x.columnName == n with
      | none =>
        left
        rw [h1, h2] at hf hgoal
        dsimp only at hf
        rw [hend, hgoal]
        rcases hcases with ⟨h3, _⟩ | ⟨h3, x, hx, ps, hk, hn⟩
        · rw [h3, hf]; cases drop <;> rfl
        · obtain ⟨b, hb, _⟩ := hkey x hx ps hk hn
          rw [h2] at hb; cases hb
      | some b =>
        right
        obtain ⟨c, hc, hr⟩ := common_reached h h1 h2
        exact ⟨a, (find_some h1).1, b, (find_some h2).1, c, (find_some h1).2, (find_some h2).2, hc, hr⟩

theorem endTbl_alike : Tbl.Alike (goalTbl e.cur e.coll drop s t) (endTbl e drop s t) := by
  refine ⟨fun n => ?_, rfl, rfl⟩
  rw [end_isSome h, hasColumn_find, hasColumn_find]
  show (newer drop (((liveColumns s).find? fun x => x.columnName == n).map _)
    (((liveColumns t).find? fun x => x.columnName == n).map _)).isSome = _
  cases (liveColumns s).find? (fun x => x.columnName == n) <;>
  cases (liveColumns t).find? (fun x => x.columnName == n) <;> cases drop <;> rfl

end

/-! ## Databases that are alike -/

section
variable {A B : Db} (h : Db.Alike A B)

include h

theorem has_alike {s n : Str} {o : Obj} (hh : Has A s n o) : Has B s n o := by
  cases o with
  | table =>
    obtain ⟨t, ht⟩ := hh
    obtain ⟨u, hu, _⟩ := h.some ht
    exact ⟨u, hu⟩
  | index a =>
    obtain ⟨t, x, ht, hx⟩ := hh
    obtain ⟨u, hu, hl⟩ := h.some ht
    exact ⟨u, x, hu, hl.idx ▸ hx⟩
  | key a =>
    obtain ⟨t, c, ht, hc, hk⟩ := hh
    obtain ⟨u, hu, hl⟩ := h.some ht
    exact ⟨u, c, hu, hl.con ▸ hc, hk⟩

theorem foreign_alike {k : Key} {n : Str} {cs : List Str} {ref : Ref} (hh : Foreign A k n cs ref) :
    Foreign B k n cs ref := by
  obtain ⟨t, c, ht, hc, hk⟩ := hh
  obtain ⟨u, hu, hl⟩ := h.some ht
  exact ⟨u, c, hu, hl.con ▸ hc, hk⟩

theorem target_alike {cs : List Str} {ref : Ref} (hh : Target A cs ref) : Target B cs ref := by
  obtain ⟨h1, r, hr, h2, ks, h3, h4⟩ := hh
  obtain ⟨u, hu, hl⟩ := h.some hr
  refine ⟨h1, u, hu, fun x hx => ?_, ks, h3, ?_⟩
  · rw [← hl.col]; exact h2 x hx
  · unfold TargetKey at h4 ⊢
    rw [← hl.con, ← hl.idx]
    exact h4

theorem consistent_alike (hc : Consistent A) : Consistent B where
  schema := by
    intro k t ht
    obtain ⟨u, hu, hl⟩ := h.symm.some ht
    rw [← h.schema]
    exact hc.schema k u hu
  named := by
    intro k t n c ht hn
    obtain ⟨u, hu, hl⟩ := h.symm.some ht
    exact hc.named k u n c hu (hl.con ▸ hn)
  con := by
    intro k t n c ht hn x hx
    obtain ⟨u, hu, hl⟩ := h.symm.some ht
    rw [hl.col]
    exact hc.con k u n c hu (hl.con ▸ hn) x hx
  idx := by
    intro k t n x ht hn y hy
    obtain ⟨u, hu, hl⟩ := h.symm.some ht
    rw [hl.col]
    exact hc.idx k u n x hu (hl.idx ▸ hn) y hy
  primary := by
    intro k t n m c d cs ds ht hn hm
    obtain ⟨u, hu, hl⟩ := h.symm.some ht
    exact hc.primary k u n m c d cs ds hu (hl.con ▸ hn) (hl.con ▸ hm)
  deferred := by
    intro k t n c ht hn
    obtain ⟨u, hu, hl⟩ := h.symm.some ht
    exact hc.deferred k u n c hu (hl.con ▸ hn)
  fkey := fun k n cs ref hf => target_alike h (hc.fkey k n cs ref (foreign_alike h.symm hf))
  names := fun s n o o' h1 h2 => hc.names s n o o' (has_alike h.symm h1) (has_alike h.symm h2)

theorem passable_alike {S : Db} (hp : Passable S A) : Passable S B where
  names := fun s n o o' h1 h2 => hp.names s n o o' h1 (has_alike h.symm h2)
  keys := by
    intro k s t n c cols hs ht hc hk hn k' m cs ref h1 h2
    obtain ⟨u, hu, hl⟩ := h.symm.some ht
    exact hp.keys k s u n c cols hs hu hc hk (hl.con ▸ hn) k' m cs ref h1 (foreign_alike h.symm h2)
  indexes := by
    intro k s t n x hs ht hx hu hn k' m cs ref h1 h2
    obtain ⟨u, hu', hl⟩ := h.symm.some ht
    exact hp.indexes k s u n x hs hu' hx hu (hl.idx ▸ hn) k' m cs ref h1 (foreign_alike h.symm h2)

end

end PgSpec
