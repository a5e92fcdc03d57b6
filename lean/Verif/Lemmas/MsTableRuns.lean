import Verif.Lemmas.MsTable

/-!
# The statements for a table are accepted
-/

namespace MsSpec
open SqlSpec Sqddl DdlText DdlSpec EngineSpec Sqddl.Sqlserver
open MsText (Act Differs OneDiffers)
open PgSpec (gone lostCols newCols newKeys lostIdxs newIdxs primary_isKey withTable_self withTable_other)
open CatalogSpec (keyConstraint foreignKey liveColumns liveConstraints liveIndexes hasColumn hasIndex
  hasConstraint commonTables TableOk liveTables)

/-- A key or a foreign key is about its columns. -/
theorem conUses_cols {cur n : Str} {x : Constraint} (h : keyConstraint x = true ∨ foreignKey x = true) :
    conUses n (conOf .sqlserver cur x) = x.columns.contains n := by
  have e : (conOf .sqlserver cur x).kind = kindOf .sqlserver cur x := rfl
  unfold conUses
  rw [e]
  unfold kindOf
  by_cases h1 : x.constraintType = b!"PRIMARY KEY"
  · rw [if_pos h1]
  · rw [if_neg h1]
    by_cases h2 : x.constraintType = b!"UNIQUE"
    · rw [if_pos h2]
    · rw [if_neg h2]
      have h3 : x.constraintType = b!"FOREIGN KEY" := by
        rcases h with h | h
        · unfold keyConstraint at h
          simp only [Bool.or_eq_true, beq_iff_eq] at h
          exact absurd h (by rintro (h | h); exact h1 h; exact h2 h)
        · unfold foreignKey at h
          have h' : x.constraintType = FOREIGN_KEY := by simpa using h
          exact h'
      rw [if_pos h3]

section
variable {e : Env} {drop : Bool} {s t : Table} (h0 : PairOk e.cur e.coll drop s t)

include h0 in
/-- The columns of the primary key. -/
theorem pkey_iff {n : Str} : (pkeyColumns t).contains n = true ↔ inKey t n := by
  unfold pkeyColumns inKey
  have hm : ∀ x, x ∈ (t.constraints.filter fun c => !c.ignore && c.constraintType = PRIMARY_KEY) ↔
      x ∈ liveConstraints t ∧ PgSpec.primaryKey x = true := by
    intro x
    unfold liveConstraints
    rw [primaryKey_iff, List.mem_filter, List.mem_filter]
    simp [and_assoc]
  cases hl : (t.constraints.filter fun c => !c.ignore && c.constraintType = PRIMARY_KEY).getLast? with
  | none =>
    rw [List.getLast?_eq_none_iff] at hl
    rw [hl] at hm
    constructor
    · intro h; simp at h
    · rintro ⟨x, h1, h2, _⟩
      have := (hm x).2 ⟨h1, h2⟩
      cases this
  | some y =>
    have hy := (hm y).1 (List.mem_of_getLast? hl)
    simp only [Option.map_some, Option.getD_some, List.contains_iff_mem]
    constructor
    · exact fun h => ⟨y, hy.1, hy.2, h⟩
    · rintro ⟨x, h1, h2, h3⟩
      rw [live_same' h0 hy.1 h1 hy.2 h2]
      exact h3

include h0 in
theorem mem_common {a b : Column} {n : Str}
    (ha : (liveColumns s).find? (fun c => c.columnName == n) = some a)
    (hb : (liveColumns t).find? (fun c => c.columnName == n) = some b) :
    (a, b) ∈ CatalogSpec.commonColumns s t := (mem_commonColumns_iff h0.dest).2 ⟨n, ha, hb⟩

include h0 in
/-- A column that both versions have is at the end what it should be. -/
theorem endCols_reached {a b : Column} {n : Str}
    (ha : (liveColumns s).find? (fun c => c.columnName == n) = some a)
    (hb : (liveColumns t).find? (fun c => c.columnName == n) = some b) :
    ∃ c, endCols e drop s t n = some c ∧ ColumnReached e.coll a b c := by
  unfold endCols
  rw [ha, hb]
  refine ⟨_, rfl, ?_⟩
  have hal := h0.pair.columns _ (mem_common h0 ha hb)
  cases hd : columnsAreDifferent .sqlserver e.coll a b with
  | false => exact same_reached hal hd
  | true =>
    refine endCol_reached hal (pkey_iff h0) (columns_differ hd) ?_
    rintro ⟨x, h1, h2, h3⟩
    exact (h0.destNotNull x h1 h2 b (find_some hb).1 h3).1

/-! ### Columns on the way -/

/-- The columns after some are removed. -/
def cols3 (e : Env) (drop : Bool) (s t : Table) (n : Str) : Option Col :=
  if n ∈ (lostCols drop s t).map (fun c => c.columnName) then none else (tblOf e.cur e.coll s).col n

/-- The columns after some are added. -/
def cols4 (e : Env) (drop : Bool) (s t : Table) (n : Str) : Option Col :=
  if n ∈ (newCols s t).map (fun c => c.columnName) then (tblOf e.cur e.coll t).col n
  else cols3 e drop s t n

theorem colS (n : Str) : (tblOf e.cur e.coll s).col n =
    ((liveColumns s).find? fun x => x.columnName == n).map (colOf .sqlserver e.coll false) := rfl

include h0 in
theorem find_srcCol {x : Column} (hx : x ∈ liveColumns s) :
    (liveColumns s).find? (fun c => c.columnName == x.columnName) = some x :=
  find?_self (k := fun c : Column => c.columnName) (nodup_columns h0.src) hx

include h0 in
theorem find_destCol {x : Column} (hx : x ∈ liveColumns t) :
    (liveColumns t).find? (fun c => c.columnName == x.columnName) = some x :=
  find?_self (k := fun c : Column => c.columnName) (nodup_columns h0.dest) hx

theorem mem_lostNames {n : Str} : n ∈ (lostCols drop s t).map (fun c => c.columnName) ↔
    drop = true ∧ ((liveColumns s).find? fun c => c.columnName == n).isSome = true ∧
      (liveColumns t).find? (fun c => c.columnName == n) = none := by
  unfold lostCols
  cases drop with
  | false => simp
  | true =>
    rw [if_pos rfl, List.mem_map]
    constructor
    · rintro ⟨x, hx, rfl⟩
      obtain ⟨h1, h2⟩ := List.mem_filter.1 hx
      unfold gone at h2
      rw [hasColumn_find] at h2
      refine ⟨rfl, ?_, by simpa using h2⟩
      rw [← hasColumn_find]
      unfold hasColumn
      exact List.any_eq_true.2 ⟨x, h1, by simp⟩
    · rintro ⟨-, h1, h2⟩
      obtain ⟨x, hx⟩ := Option.isSome_iff_exists.1 h1
      obtain ⟨hx1, rfl⟩ := find_some hx
      refine ⟨x, List.mem_filter.2 ⟨hx1, ?_⟩, rfl⟩
      unfold gone
      rw [hasColumn_find, h2]; rfl

theorem mem_newNames {n : Str} : n ∈ (newCols s t).map (fun c => c.columnName) ↔
    (liveColumns s).find? (fun c => c.columnName == n) = none ∧
      ((liveColumns t).find? fun c => c.columnName == n).isSome = true := by
  unfold newCols
  rw [List.mem_map]
  constructor
  · rintro ⟨x, hx, rfl⟩
    obtain ⟨h1, h2⟩ := List.mem_filter.1 hx
    rw [hasColumn_find] at h2
    refine ⟨by simpa using h2, ?_⟩
    rw [← hasColumn_find]
    unfold hasColumn
    exact List.any_eq_true.2 ⟨x, h1, by simp⟩
  · rintro ⟨h2, h1⟩
    obtain ⟨x, hx⟩ := Option.isSome_iff_exists.1 h1
    obtain ⟨hx1, rfl⟩ := find_some hx
    refine ⟨x, List.mem_filter.2 ⟨hx1, ?_⟩, rfl⟩
    rw [hasColumn_find, h2]; rfl

/-- What the columns on the way are. -/
theorem cols4_eq (n : Str) : cols4 e drop s t n =
    match (liveColumns s).find? (fun c => c.columnName == n),
      (liveColumns t).find? (fun c => c.columnName == n) with
    | some a, some _ => some (colOf .sqlserver e.coll false a)
    | some a, none => if drop then none else some (colOf .sqlserver e.coll false a)
    | none, y => y.map (colOf .sqlserver e.coll false) := by
  unfold cols4 cols3
  simp only [mem_newNames, mem_lostNames, colS]
  cases (liveColumns s).find? fun c => c.columnName == n with
  | none =>
    cases (liveColumns t).find? fun c => c.columnName == n with
    | none => simp
    | some b => simp
  | some a =>
    cases (liveColumns t).find? fun c => c.columnName == n with
    | none => cases drop <;> simp
    | some b => simp

/-- The columns that are not changed are already what they should be. -/
theorem cols4_rest {n : Str} (hn : n ∉ (changed e.coll s t).map fun q => q.1.columnName)
    (h0 : PairOk e.cur e.coll drop s t) : cols4 e drop s t n = endCols e drop s t n := by
  rw [cols4_eq]
  unfold endCols
  cases ha : (liveColumns s).find? fun c => c.columnName == n with
  | none => rfl
  | some a =>
    cases hb : (liveColumns t).find? fun c => c.columnName == n with
    | none => rfl
    | some b =>
      dsimp only
      rw [if_neg]
      intro hd
      exact hn (List.mem_map.2 ⟨(a, b), List.mem_filter.2 ⟨mem_common h0 ha hb, hd⟩, (find_some ha).2⟩)

/-- The columns that are changed. -/
theorem cols4_changed {q : Column × Column} (hq : q ∈ changed e.coll s t)
    (h0 : PairOk e.cur e.coll drop s t) :
    cols4 e drop s t q.1.columnName = some (colOf .sqlserver e.coll false q.1) ∧
    endCols e drop s t q.1.columnName = some (endCol e (pkeyColumns t) q.1 q.2) ∧
    q.1.columnName = q.2.columnName ∧ q.1 ∈ liveColumns s ∧ q.2 ∈ liveColumns t := by
  obtain ⟨h1, h2⟩ := List.mem_filter.1 hq
  obtain ⟨n, ha, hb⟩ := (mem_commonColumns_iff h0.dest).1 h1
  have hn := (find_some ha).2
  subst hn
  refine ⟨?_, ?_, (find_some hb).2.symm, (find_some ha).1, (find_some hb).1⟩
  · rw [cols4_eq, ha, hb]
  · unfold endCols
    rw [ha, hb]
    dsimp only
    rw [if_pos h2]

/-- A column on the way is computed as one of the versions says. -/
theorem computed_from {n : Str} {c : Col}
    (hc : (tblOf e.cur e.coll s).col n = some c ∨ cols4 e drop s t n = some c ∨
      endCols e drop s t n = some c) :
    ∃ z ∈ liveColumns s ++ liveColumns t, c.generated = (colOf .sqlserver e.coll false z).generated := by
  rw [colS, cols4_eq] at hc
  unfold endCols at hc
  cases ha : (liveColumns s).find? fun c => c.columnName == n with
  | none =>
    rw [ha] at hc
    cases hb : (liveColumns t).find? fun c => c.columnName == n with
    | none => rw [hb] at hc; simp at hc
    | some b =>
      rw [hb] at hc
      simp only [Option.map_none, Option.map_some, Option.some.injEq, reduceCtorEq, false_or, or_self] at hc
      exact ⟨b, List.mem_append.2 (Or.inr (find_some hb).1), by rw [← hc]⟩
  | some a =>
    rw [ha] at hc
    refine ⟨a, List.mem_append.2 (Or.inl (find_some ha).1), ?_⟩
    cases hb : (liveColumns t).find? fun c => c.columnName == n with
    | none =>
      rw [hb] at hc
      cases drop <;> simp at hc <;> rw [← hc]
    | some b =>
      rw [hb] at hc
      simp only [Option.map_some, Option.some.injEq] at hc
      rcases hc with hc | hc | hc
      · rw [← hc]
      · rw [← hc]
      · rw [← hc]
        split
        · exact (endCol_keeps e (pkeyColumns t) a b).2.1
        · rfl

theorem generated_congr {n : Str} {c d : Col} (h : c.generated = d.generated) :
    generatedFrom n c = generatedFrom n d := by
  unfold generatedFrom
  rw [h]

end

section
variable {N : Numbers} {S G : Db} {R : Key → Str → Prop} {e : Env} {drop : Bool} {s t : Table}
  {r : Str → Bool} (h : Scene N S G R e drop s t r)
  {a : AlterTable} {DK RK : List Constraint} {RI : List Index}
  (ch : Changes e.cur e.coll drop s t a DK RK RI)

include h in
theorem fits_between {T : Tbl}
    (hcol : ∀ n c, T.col n = some c → (tblOf e.cur e.coll s).col n = some c ∨
      endCols e drop s t n = some c)
    (hcon : ∀ n c, T.con n = some c → (tblA e drop s t r).con n = some c ∨
      (tblB e drop s t r).con n = some c)
    (hidx : ∀ n c, T.idx n = some c → (tblOf e.cur e.coll s).idx n = some c ∨
      (endTbl e drop s t).idx n = some c) : Fits S G R (t.tableSchema, t.tableName) T where
  table := h.fitsA.table
  fk n c cs ref h1 h2 := (hcon n c h1).elim (fun h1 => h.fitsA.fk n c cs ref h1 h2)
    fun h1 => h.fitsB.fk n c cs ref h1 h2
  con n c h1 := (hcon n c h1).elim (h.fitsA.con n c) (h.fitsB.con n c)
  idx n c h1 := (hidx n c h1).elim (h.fitsA.idx n c) (h.fitsB.idx n c)
  col n c h1 := (hcol n c h1).elim (h.fitsA.col n c) (h.fitsB.col n c)

theorem cols4_between {n : Str} {c : Col} (hc : cols4 e drop s t n = some c) :
    (tblOf e.cur e.coll s).col n = some c ∨ endCols e drop s t n = some c := by
  rw [cols4_eq] at hc
  rw [colS]
  unfold endCols
  cases ha : (liveColumns s).find? fun c => c.columnName == n with
  | none =>
    rw [ha] at hc
    right
    exact hc
  | some a =>
    rw [ha] at hc
    left
    cases hb : (liveColumns t).find? fun c => c.columnName == n with
    | none =>
      rw [hb] at hc
      cases drop <;> simp at hc <;> rw [← hc] <;> rfl
    | some b =>
      rw [hb] at hc
      exact hc

/-- The names of the constraints that are dropped. -/
abbrev dropNames (DK RK : List Constraint) : List Str := (DK ++ RK).map fun c => c.constraintName

/-- The names of the indexes that are dropped. -/
abbrev dropIdxNames (drop : Bool) (s t : Table) (RI : List Index) : List Str :=
  (lostIdxs drop s t ++ RI).map fun c => c.indexName

theorem fewerCons_A {DC : List Str} {n : Str} {c : Con} (hc : fewerCons e drop s t r DC n = some c) :
    (tblA e drop s t r).con n = some c := by
  unfold fewerCons at hc
  split at hc
  · cases hc
  · exact hc

theorem fewerIdxs_A {DI : List Str} {n : Str} {c : Idx} (hc : fewerIdxs e s DI n = some c) :
    (tblOf e.cur e.coll s).idx n = some c := by
  unfold fewerIdxs at hc
  split at hc
  · cases hc
  · exact hc

include h ch in
/-- A column that is changed is not in the way of anything. -/
theorem unused_changed {q : Column × Column} (hq : q ∈ changed e.coll s t) (col : Str → Option Col)
    (hcol : ∀ n c, col n = some c → cols4 e drop s t n = some c ∨ endCols e drop s t n = some c) :
    Unused ⟨col, fewerCons e drop s t r (dropNames DK RK), fewerIdxs e s (dropIdxNames drop s t RI)⟩
      q.1.columnName where
  con m c hc := by
    obtain ⟨x, hx, rfl, _, hno⟩ := fewer_some h ch hc
    obtain ⟨hq1, hq2⟩ := changed_differs hq
    cases hk : keyConstraint x with
    | true =>
      rw [conUses_cols (Or.inl hk)]
      cases hcn : x.columns.contains q.1.columnName with
      | false => rfl
      | true => exact absurd ⟨q, hq, by simpa using hcn⟩ (hno (Or.inl hk))
    | false =>
      cases hf : foreignKey x with
      | true =>
        rw [conUses_cols (Or.inr hf)]
        cases hcn : x.columns.contains q.1.columnName with
        | false => rfl
        | true => exact absurd ⟨q, hq, by simpa using hcn⟩ (hno (Or.inr hf))
      | false => exact (h.ok.pair.alone q hq1 hq2).1 x (find_some hx).1 hk hf
  idx m y hy := by
    obtain ⟨x, hx, rfl, _, _, hno⟩ := fewerIdx_some h ch hy
    obtain ⟨hq1, hq2⟩ := changed_differs hq
    cases hu : idxUses q.1.columnName (idxOf .sqlserver e.cur false true x) with
    | false => rfl
    | true => exact absurd ⟨q, hq, (h.ok.pair.alone q hq1 hq2).2.1 x (find_some hx).1 hu⟩ hno
  col m c hc hne := by
    obtain ⟨z, hz, hg⟩ := computed_from (drop := drop) (s := s) (t := t) (Or.inr (hcol m c hc))
    rw [generated_congr hg]
    obtain ⟨hq1, hq2⟩ := changed_differs hq
    exact (h.ok.pair.alone q hq1 hq2).2.2 z hz

include h ch in
/-- A column that is removed is not needed by what remains. -/
theorem unused_lost (hd : drop = true) {y : Column} (hy : y ∈ liveColumns s) (hg : gone t y = true) :
    Unused ⟨(tblOf e.cur e.coll s).col, fewerCons e drop s t r (dropNames DK RK),
      fewerIdxs e s (dropIdxNames drop s t RI)⟩ y.columnName := by
  obtain ⟨_, h2, h3, h4⟩ := h.ok.pair.mentions hd y hy hg
  constructor
  · intro m c hc
    obtain ⟨x, hx, rfl, hgoal, _⟩ := fewer_some h ch hc
    obtain ⟨hx1, rfl⟩ := find_some hx
    refine h2 x hx1 ?_
    cases hh : hasConstraint t x.constraintName with
    | true => rfl
    | false =>
      have := (goalCon_src h.ok hx).2.2 ⟨hh, Or.inl hd⟩
      rw [this] at hgoal; cases hgoal
  · intro m c hc
    obtain ⟨x, hx, rfl, _, hno, _⟩ := fewerIdx_some h ch hc
    obtain ⟨hx1, rfl⟩ := find_some hx
    refine h3 x hx1 ?_
    cases hh : hasIndex t x.indexName with
    | true => rfl
    | false => exact absurd ⟨hd, hh⟩ hno
  · intro m c hc _
    have hc : (tblOf e.cur e.coll s).col m = some c := hc
    rw [colS] at hc
    obtain ⟨z, hz, rfl⟩ := Option.map_eq_some_iff.1 hc
    exact h4 z (find_some hz).1

theorem steps_alter {db : Db} {T T' : Tbl} {as : List Act} (hs : t.tableSchema ≠ [])
    (hst : Steps db (t.tableSchema, t.tableName) T as T') :
    Runs N (db.withTable (t.tableSchema, t.tableName) T)
      (as.map (alterOne e.cur (alterSchema e t) t.tableName))
      (db.withTable (t.tableSchema, t.tableName) T') := by
  have hsch : alterSchema e t = t.tableSchema := if_pos hs
  have hkey : key (fullName e.cur t.tableSchema t.tableName) = (t.tableSchema, t.tableName) :=
    key_fullName hs
  rw [hsch]
  rw [← hkey] at hst ⊢
  exact runs_steps hst

include h ch in
/-- The parts of the table on the way are those of the first or of the last version. -/
theorem fits_way {T : Tbl}
    (hcol : ∀ n c, T.col n = some c → (tblOf e.cur e.coll s).col n = some c ∨
      cols4 e drop s t n = some c ∨ endCols e drop s t n = some c)
    (hcon : T.con = (tblA e drop s t r).con ∨ T.con = fewerCons e drop s t r (dropNames DK RK) ∨
      T.con = (tblB e drop s t r).con)
    (hidx : T.idx = (tblOf e.cur e.coll s).idx ∨ T.idx = fewerIdxs e s (dropIdxNames drop s t RI) ∨
      T.idx = (endTbl e drop s t).idx) : Fits S G R (t.tableSchema, t.tableName) T := by
  refine fits_between h ?_ ?_ ?_
  · intro n c hc
    rcases hcol n c hc with h1 | h1 | h1
    · exact Or.inl h1
    · exact cols4_between h1
    · exact Or.inr h1
  · intro n c hc
    rcases hcon with h1 | h1 | h1 <;> rw [h1] at hc
    · exact Or.inl hc
    · exact Or.inl (fewerCons_A hc)
    · exact Or.inr hc
  · intro n c hc
    rcases hidx with h1 | h1 | h1 <;> rw [h1] at hc
    · exact Or.inl hc
    · exact Or.inl (fewerIdxs_A hc)
    · exact Or.inr hc

variable {db : Db} (hm : Mid S G R db)

include h ch hm in
theorem runs_1 : Runs N (db.withTable (t.tableSchema, t.tableName) (tblA e drop s t r))
    (a.dropIndexes.map fun x => .dropIndex x.indexName (fullName e.cur x.tableSchema x.tableName))
    (db.withTable (t.tableSchema, t.tableName)
      { tblA e drop s t r with idx := fewerIdxs e s (dropIdxNames drop s t RI) }) := by
  rw [ch.dropIndexes]
  refine runs_dropIndexes hm ?_ ?_ (fun x : Index => x.indexName)
    (fun x => fullName e.cur x.tableSchema x.tableName) _ (nodup_DI h ch) ?_ ?_
  · exact fits_way h ch (fun n c hc => Or.inl hc) (Or.inl rfl) (Or.inl rfl)
  · exact fits_way h ch (fun n c hc => Or.inl hc) (Or.inl rfl) (Or.inr (Or.inl rfl))
  · intro x hx
    obtain ⟨h1, h2, h3, h4⟩ := idx_dropped h ch hx
    refine ⟨?_, if_pos (List.mem_map.2 ⟨x, hx, rfl⟩), _, h3, h4⟩
    rw [h1, h2]
    exact key_fullName h.ok.schema
  · intro n hn
    exact (if_neg hn).symm

include h ch hm in
theorem runs_2 : Runs N (db.withTable (t.tableSchema, t.tableName)
      { tblA e drop s t r with idx := fewerIdxs e s (dropIdxNames drop s t RI) })
    (a.dropConstraints.map fun c =>
      alterOne e.cur (alterSchema e t) t.tableName (.dropConstraint c.constraintName))
    (db.withTable (t.tableSchema, t.tableName)
      ⟨(tblOf e.cur e.coll s).col, fewerCons e drop s t r (dropNames DK RK),
        fewerIdxs e s (dropIdxNames drop s t RI)⟩) := by
  rw [ch.dropConstraints]
  have st : Steps db (t.tableSchema, t.tableName)
      { tblA e drop s t r with idx := fewerIdxs e s (dropIdxNames drop s t RI) }
      ((dropNames DK RK).map Act.dropConstraint)
      ⟨(tblOf e.cur e.coll s).col, fewerCons e drop s t r (dropNames DK RK),
        fewerIdxs e s (dropIdxNames drop s t RI)⟩ := by
    refine steps_dropConstraints (g := fewerCons e drop s t r (dropNames DK RK)) hm ?_ ?_ _ (nodup_DC h ch)
      ?_ ?_
    · exact fits_way h ch (fun n c hc => Or.inl hc) (Or.inl rfl) (Or.inr (Or.inl rfl))
    · exact fits_way h ch (fun n c hc => Or.inl hc) (Or.inr (Or.inl rfl)) (Or.inr (Or.inl rfl))
    · intro n hn
      refine ⟨if_pos hn, ?_⟩
      obtain ⟨x, hx, rfl⟩ := List.mem_map.1 hn
      exact ⟨_, con_dropped h ch hx⟩
    · intro n hn
      exact (if_neg hn).symm
  have := steps_alter (N := N) (e := e) h.ok.schema st
  rw [List.map_map, List.map_map] at this
  exact this

include h ch in
theorem runs_3 : Runs N (db.withTable (t.tableSchema, t.tableName)
      ⟨(tblOf e.cur e.coll s).col, fewerCons e drop s t r (dropNames DK RK),
        fewerIdxs e s (dropIdxNames drop s t RI)⟩)
    (a.dropColumns.map fun c =>
      alterOne e.cur (alterSchema e t) t.tableName (.dropColumn c.columnName))
    (db.withTable (t.tableSchema, t.tableName)
      ⟨cols3 e drop s t, fewerCons e drop s t r (dropNames DK RK),
        fewerIdxs e s (dropIdxNames drop s t RI)⟩) := by
  rw [ch.dropColumns]
  have st : Steps db (t.tableSchema, t.tableName)
      ⟨(tblOf e.cur e.coll s).col, fewerCons e drop s t r (dropNames DK RK),
        fewerIdxs e s (dropIdxNames drop s t RI)⟩
      (((lostCols drop s t).map fun c => c.columnName).map Act.dropColumn)
      ⟨cols3 e drop s t, fewerCons e drop s t r (dropNames DK RK),
        fewerIdxs e s (dropIdxNames drop s t RI)⟩ := by
    refine steps_dropColumns (g := cols3 e drop s t) _ ?_ ?_ ?_ ?_
    · unfold lostCols
      split
      · exact nodup_filter (nodup_columns h.ok.src) _
      · exact List.nodup_nil
    · intro n hn
      refine ⟨if_pos hn, ?_⟩
      obtain ⟨y, hy, rfl⟩ := List.mem_map.1 hn
      have hd := (mem_lostNames.1 hn).1
      unfold lostCols at hy
      rw [if_pos hd] at hy
      obtain ⟨hy1, hy2⟩ := List.mem_filter.1 hy
      refine ⟨⟨colOf .sqlserver e.coll false y, ?_, ?_⟩, unused_lost h ch hd hy1 hy2⟩
      · show (tblOf e.cur e.coll s).col y.columnName = _
        rw [colS, find_srcCol h.ok hy1]; rfl
      · rw [colOf_default, (h.ok.pair.mentions hd y hy1 hy2).1]; rfl
    · intro hne
      cases hl : lostCols drop s t with
      | nil => rw [hl] at hne; exact absurd rfl hne
      | cons y l =>
        have hn : y.columnName ∈ (lostCols drop s t).map fun c => c.columnName :=
          List.mem_map.2 ⟨y, by rw [hl]; exact .head _, rfl⟩
        have hd := (mem_lostNames.1 hn).1
        have hy : y ∈ lostCols drop s t := by rw [hl]; exact .head _
        unfold lostCols at hy
        rw [if_pos hd] at hy
        obtain ⟨hy1, hy2⟩ := List.mem_filter.1 hy
        have hcc := (h.ok.pair.surplusColumns hd ⟨y, hy1, hy2⟩).2
        cases hc : CatalogSpec.commonColumns s t with
        | nil => exact absurd hc hcc
        | cons q qs =>
          obtain ⟨n, ha, hb⟩ := (mem_commonColumns_iff h.ok.dest).1
            (by rw [hc]; exact .head _ : q ∈ CatalogSpec.commonColumns s t)
          refine ⟨n, ?_, ?_⟩
          · rw [← hl, mem_lostNames, hb]
            rintro ⟨_, _, h3⟩; cases h3
          · show ((tblOf e.cur e.coll s).col n).isSome
            rw [colS, ha]; rfl
    · intro n hn
      exact (if_neg hn).symm
  have := steps_alter (N := N) (e := e) h.ok.schema st
  rw [List.map_map, List.map_map] at this
  exact this

include h ch in
theorem runs_4 : Runs N (db.withTable (t.tableSchema, t.tableName)
      ⟨cols3 e drop s t, fewerCons e drop s t r (dropNames DK RK),
        fewerIdxs e s (dropIdxNames drop s t RI)⟩)
    (a.addColumns.map fun c =>
      alterOne e.cur (alterSchema e t) t.tableName (.addColumn (colOf .sqlserver e.coll false c)))
    (db.withTable (t.tableSchema, t.tableName)
      ⟨cols4 e drop s t, fewerCons e drop s t r (dropNames DK RK),
        fewerIdxs e s (dropIdxNames drop s t RI)⟩) := by
  rw [ch.addColumns]
  have hnm : ((newCols s t).map (colOf .sqlserver e.coll false)).map (fun c => c.name) =
      (newCols s t).map fun c => c.columnName := by
    rw [List.map_map]; rfl
  have hid : ∀ c : Column, (colOf .sqlserver e.coll false c).identity.isSome = true ↔
      c.columnIdentity ≠ [] := by
    intro c
    simp only [colOf]
    by_cases hc : c.columnIdentity = [] <;> simp [hc]
  have hnone : ∀ c : Column, c.columnIdentity = [] → (colOf .sqlserver e.coll false c).identity = none := by
    intro c hc
    simp [colOf, hc]
  have st : Steps db (t.tableSchema, t.tableName)
      ⟨cols3 e drop s t, fewerCons e drop s t r (dropNames DK RK),
        fewerIdxs e s (dropIdxNames drop s t RI)⟩
      (((newCols s t).map (colOf .sqlserver e.coll false)).map Act.addColumn)
      ⟨cols4 e drop s t, fewerCons e drop s t r (dropNames DK RK),
        fewerIdxs e s (dropIdxNames drop s t RI)⟩ := by
    refine steps_addColumns (g := cols4 e drop s t) _ ?_ ?_ ?_
    · rw [hnm]
      exact nodup_filter (nodup_columns h.ok.dest) _
    · intro c hc
      obtain ⟨y, hy, rfl⟩ := List.mem_map.1 hc
      have hn : y.columnName ∈ (newCols s t).map fun c => c.columnName := List.mem_map.2 ⟨y, hy, rfl⟩
      obtain ⟨hy1, hy2⟩ := List.mem_filter.1 hy
      have hs : hasColumn s y.columnName = false := by simpa using hy2
      have hsn : (liveColumns s).find? (fun c => c.columnName == y.columnName) = none := (mem_newNames.1 hn).1
      refine ⟨?_, ?_, h.ok.pair.added y hy1 hs, ?_⟩
      · show cols3 e drop s t y.columnName = none
        unfold cols3
        split
        · rfl
        · rw [colS, hsn]; rfl
      · show cols4 e drop s t y.columnName = _
        rw [cols4_eq, hsn, find_destCol h.ok hy1]; rfl
      · intro hi m d hd hne
        have hi := (hid y).1 hi
        have inS : ∀ {m d}, cols3 e drop s t m = some d → d.identity = none := by
          intro m d hd
          unfold cols3 at hd
          split at hd
          · cases hd
          · rw [colS] at hd
            obtain ⟨z, hz, rfl⟩ := Option.map_eq_some_iff.1 hd
            exact hnone z (h.ok.pair.identity y hy1 hs hi z (find_some hz).1)
        rcases hd with hd | hd
        · exact inS hd
        · unfold cols4 at hd
          split at hd
          · rw [colS] at hd
            obtain ⟨z, hz, rfl⟩ := Option.map_eq_some_iff.1 hd
            obtain ⟨hz1, rfl⟩ := find_some hz
            by_cases hzi : z.columnIdentity = []
            · exact hnone z hzi
            · exact absurd (h.ok.identity z hz1 y hy1 hzi hi) hne
          · exact inS hd
    · intro n hn
      rw [hnm] at hn
      exact (if_neg hn).symm
  have := steps_alter (N := N) (e := e) h.ok.schema st
  rw [List.map_map, List.map_map] at this
  exact this

include h ch hm in
theorem runs_5 : Runs N (db.withTable (t.tableSchema, t.tableName)
      ⟨cols4 e drop s t, fewerCons e drop s t r (dropNames DK RK),
        fewerIdxs e s (dropIdxNames drop s t RI)⟩)
    (a.alterColumns.flatMap (columnOf e t))
    (db.withTable (t.tableSchema, t.tableName)
      ⟨endCols e drop s t, fewerCons e drop s t r (dropNames DK RK),
        fewerIdxs e s (dropIdxNames drop s t RI)⟩) := by
  rw [ch.alterColumns]
  have hnd : ((changed e.coll s t).map fun q => q.1.columnName).Nodup := by
    have h1 := nodup_commonColumns (s := s) h.ok.dest
      fun q => columnsAreDifferent .sqlserver e.coll q.1 q.2
    have e1 : (changed e.coll s t).map (fun q => q.1.columnName) =
        (changed e.coll s t).map fun q => q.2.columnName :=
      List.map_congr_left fun q hq => (h.ok.pair.columns q (changed_differs hq).1).name
    rw [e1]
    exact h1
  have := runs_mix (N := N) (db := db) (k := (t.tableSchema, t.tableName)) (columnOf e t)
    (fun q => q.1.columnName)
    (fun ns => ⟨mix ns (cols4 e drop s t) (endCols e drop s t),
      fewerCons e drop s t r (dropNames DK RK), fewerIdxs e s (dropIdxNames drop s t RI)⟩)
    (changed e.coll s t) hnd (by
      intro q hq ns hn hs
      obtain ⟨c4, ce, hname, hq1, hq2⟩ := cols4_changed hq h.ok
      obtain ⟨hcm, hdf⟩ := changed_differs hq
      have hal := h.ok.pair.columns q hcm
      have hcolm : ∀ n c, mix (q.1.columnName :: ns) (cols4 e drop s t) (endCols e drop s t) n = some c →
          cols4 e drop s t n = some c ∨ endCols e drop s t n = some c := fun n c hc => mix_or hc
      have hu := unused_changed h ch hq
        (mix (q.1.columnName :: ns) (cols4 e drop s t) (endCols e drop s t)) hcolm
      have hF : Fits S G R (t.tableSchema, t.tableName)
          ⟨mix (q.1.columnName :: ns) (cols4 e drop s t) (endCols e drop s t),
            fewerCons e drop s t r (dropNames DK RK), fewerIdxs e s (dropIdxNames drop s t RI)⟩ :=
        fits_way h ch (fun n c hc => Or.inr (hcolm n c hc)) (Or.inr (Or.inl rfl)) (Or.inr (Or.inl rfl))
      have hhead : mix (q.1.columnName :: ns) (cols4 e drop s t) (endCols e drop s t) q.1.columnName =
          some (colOf .sqlserver e.coll false q.1) := mix_head.trans c4
      have run := runs_column (N := N) (db := db) hal (pkey_iff h.ok) hdf h.ok.schema
        ⟨mix (q.1.columnName :: ns) (cols4 e drop s t) (endCols e drop s t),
            fewerCons e drop s t r (dropNames DK RK), fewerIdxs e s (dropIdxNames drop s t RI)⟩
        (by rw [← hname]; exact hhead) (by rw [← hname]; exact hu) rfl (by
          intro hd1 hd2 c hcd d hcand
          rw [← hname] at hcand ⊢
          by_cases hdn : d = q.1.columnName
          · exact hdn
          · exfalso
            obtain ⟨⟨T', x, hT, hx, hxd⟩, hnum⟩ := hcand
            rw [withTable_self] at hT
            cases hT
            have hx : put _ q.1.columnName (some c) d = some x := hx
            rw [put_ne _ _ hdn] at hx
            obtain ⟨f1, f2⟩ := h.find q hcm hd1 hd2 d hdn ((hF.col d x hx).2 hxd)
            rcases hnum with hnum | ⟨k', t', hk', hc', hnum⟩
            · exact f1 hnum
            · refine f2 k' ?_ hnum
              by_cases ek : k' = (t.tableSchema, t.tableName)
              · rw [ek]
                exact (hF.col _ _ hhead).1
              · rw [withTable_other _ ek] at hk'
                obtain ⟨c', hc'⟩ := Option.isSome_iff_exists.1 hc'
                exact ((hm k' t' hk').col _ c' hc').1)
      rw [← hname] at run
      have e1 := mix_put (f := cols4 e drop s t) (g := endCols e drop s t) hn
      rw [ce] at e1
      dsimp only at run
      rw [e1] at run
      exact run)
  rw [mix_nil, mix_all (fun n hn => cols4_rest hn h.ok)] at this
  exact this

theorem endCols_some {n : Str} (hc : ((endTbl e drop s t).col n).isSome) : (endCols e drop s t n).isSome := hc

include h ch hm in
theorem runs_6 : Runs N (db.withTable (t.tableSchema, t.tableName)
      ⟨endCols e drop s t, fewerCons e drop s t r (dropNames DK RK),
        fewerIdxs e s (dropIdxNames drop s t RI)⟩)
    (a.createIndexes.map fun x => .base (createIndexOf .sqlserver e.cur true x))
    (db.withTable (t.tableSchema, t.tableName)
      ⟨endCols e drop s t, fewerCons e drop s t r (dropNames DK RK), (endTbl e drop s t).idx⟩) := by
  rw [ch.createIndexes]
  have hnm : ((newIdxs s t ++ RI).map fun x => (idxOf .sqlserver e.cur true false x).resolve e.cur).map
      (fun x => x.name) = (newIdxs s t ++ RI).map fun x => x.indexName := by
    rw [List.map_map]; rfl
  have := runs_createIndexes (N := N) (db := db) (R := R) h.consistent h.between h.newTbl
    (t := ⟨endCols e drop s t, fewerCons e drop s t r (dropNames DK RK),
        fewerIdxs e s (dropIdxNames drop s t RI)⟩) (g := (endTbl e drop s t).idx)
    (fits_way h ch (fun n c hc => Or.inr (Or.inr hc)) (Or.inr (Or.inl rfl)) (Or.inr (Or.inl rfl)))
    (fun n hn => hn) ((newIdxs s t ++ RI).map fun x => (idxOf .sqlserver e.cur true false x).resolve e.cur)
    (by rw [hnm]; exact nodup_AI h ch)
    (by
      intro x hx
      obtain ⟨y, hy, rfl⟩ := List.mem_map.1 hx
      obtain ⟨h1, h2, h3, h4⟩ := idx_added h ch hy
      refine ⟨⟨_, rfl, ?_⟩, h1, h2, h2⟩
      have hs : y.tableSchema ≠ [] := by rw [h3]; exact h.ok.schema
      rw [← h3, ← h4]
      by_cases hcur : y.tableSchema = e.cur
      · simp [key, full, hcur]
      · simp [key, full, hcur, hs])
    (by
      intro n hn
      rw [hnm] at hn
      exact idx_rest h ch hn)
  rw [List.map_map] at this
  exact this

/-- The columns of a key are NOT NULL when it is added. -/
theorem notNull_end (h0 : PairOk e.cur e.coll drop s t) {n : Str} {b : Column} {c : Col}
    (hb : (liveColumns t).find? (fun c => c.columnName == n) = some b)
    (h1 : b.isNotNull = true) (h2 : b.generatedExpr = []) (hc : endCols e drop s t n = some c) :
    c.notNull = true := by
  have hbn : (colOf .sqlserver e.coll false b).notNull = true := by
    simp [colOf, computed, h1, h2]
  cases ha : (liveColumns s).find? fun c => c.columnName == n with
  | none =>
    unfold endCols at hc
    rw [ha, hb] at hc
    cases hc
    exact hbn
  | some a =>
    obtain ⟨c', hc', hr⟩ := endCols_reached h0 ha hb
    rw [hc] at hc'
    cases hc'
    rw [hr.notNull, hbn]

include h ch in
/-- A primary key can be added. -/
theorem primary_added {y : Constraint} (hy : y ∈ newKeys s t ++ RK) (hp : PgSpec.primaryKey y = true) :
    (∀ m d ds, fewerCons e drop s t r (dropNames DK RK) m = some d ∨ (tblB e drop s t r).con m = some d →
      d.kind = .primary ds → m = y.constraintName) ∧
    ∀ x ∈ y.columns, ∀ d, endCols e drop s t x = some d → d.notNull = true := by
  obtain ⟨_, _, hgoal, _, _⟩ := con_added h ch hy
  constructor
  · intro m d ds hd hk
    have hg : goalCon e.cur drop s t m = some d := by
      rcases hd with hd | hd
      · obtain ⟨_, _, _, h3, _⟩ := fewer_some h ch hd
        exact h3
      · exact conB_goal hd
    exact h.consistent.primary _ _ m y.constraintName d (conOf .sqlserver e.cur y) ds y.columns h.newTbl hg
      hgoal hk (kind_primary.2 ⟨hp, rfl⟩)
  · intro n hn d hd
    -- the key is in the second version
    have inT : ∀ z ∈ liveConstraints t, PgSpec.primaryKey z = true → z.columns = y.columns →
        d.notNull = true := by
      intro z hz hzp hzc
      rw [← hzc] at hn
      have hcol := h.ok.keyColumns z hz hzp n hn
      rw [hasColumn_find] at hcol
      obtain ⟨b, hb⟩ := Option.isSome_iff_exists.1 hcol
      obtain ⟨hb1, hb2⟩ := find_some hb
      obtain ⟨k1, k2⟩ := h.ok.destNotNull z hz hzp b hb1 (by rw [hb2]; exact hn)
      exact notNull_end h.ok hb k1 k2 hd
    rcases List.mem_append.1 hy with hy | hy
    · exact inT y (List.mem_filter.1 hy).1 hp rfl
    · obtain ⟨h1, h2, h3, h4⟩ := (ch.rk y).1 hy
      have hfs := find_src h.ok h1
      cases hz : (liveConstraints t).find? fun c => c.constraintName == y.constraintName with
      | some z =>
        obtain ⟨k1, k2⟩ := same_primary h.ok hfs hz
        exact inT z (find_some hz).1 (by rw [← k1]; exact hp) (k2 hp).symm
      | none =>
        have hno : hasConstraint t y.constraintName = false := by rw [hasConstraint_find, hz]; rfl
        have hkeep : ¬ (drop = true ∨ PgSpec.primaryKey y = true ∧
            (liveConstraints t).any PgSpec.primaryKey = true) := fun hh =>
          h3 ((goalCon_src h.ok hfs).2.2 ⟨hno, hh⟩)
        -- the column exists in the first version
        have hS : ((tblOf e.cur e.coll s).col n).isSome := by
          refine h.old.con _ _ y.constraintName (conOf .sqlserver e.cur y) h.oldTbl ?_ n ?_
          · show ((liveConstraints s).find? fun c => c.constraintName == y.constraintName).map _ = _
            rw [hfs]; rfl
          · have : (conOf .sqlserver e.cur y).kind = .primary y.columns := kind_primary.2 ⟨hp, rfl⟩
            rw [this]
            exact hn
        rw [colS] at hS
        cases ha : (liveColumns s).find? fun c => c.columnName == n with
        | none => rw [ha] at hS; cases hS
        | some c =>
          obtain ⟨hc1, hc2⟩ := find_some ha
          obtain ⟨k1, k2⟩ := h.ok.srcNotNull y h1 hp c hc1 (by rw [hc2]; exact hn)
          cases hb : (liveColumns t).find? fun c => c.columnName == n with
          | none =>
            unfold endCols at hd
            rw [ha, hb] at hd
            dsimp only at hd
            split at hd
            · cases hd
            · cases hd
              simp [colOf, computed, k1, k2]
          | some b =>
            have hcm := mem_common h.ok ha hb
            refine notNull_end h.ok hb ?_ ?_ hd
            · cases hbn : b.isNotNull with
              | true => rfl
              | false =>
                exfalso
                rcases h.ok.pair.nullable (c, b) hcm k1 hbn with h5 | h5 | h5
                · exact hkeep (Or.inl h5)
                · exact hkeep (Or.inr ⟨hp, h5⟩)
                · refine h5 y h1 hp ?_
                  show b.columnName ∈ y.columns
                  rw [(find_some hb).2]; exact hn
            · rw [← (h.ok.pair.columns (c, b) hcm).generated.1]
              exact k2

include h ch hm in
theorem runs_7 : Runs N (db.withTable (t.tableSchema, t.tableName)
      ⟨endCols e drop s t, fewerCons e drop s t r (dropNames DK RK), (endTbl e drop s t).idx⟩)
    (a.addConstraints.map fun c =>
      alterOne e.cur (alterSchema e t) t.tableName (.addConstraint (conOf .sqlserver e.cur c)))
    (db.withTable (t.tableSchema, t.tableName) (tblB e drop s t r)) := by
  rw [ch.addConstraints]
  have hname : ∀ y ∈ newKeys s t ++ RK, ((conOf .sqlserver e.cur y).name.getD []) = y.constraintName := by
    intro y hy
    rw [conOf_name (by decide) (con_added h ch hy).2.2.2.2]; rfl
  have hnm : ((newKeys s t ++ RK).map (conOf .sqlserver e.cur)).map (fun c => c.name.getD []) =
      (newKeys s t ++ RK).map fun c => c.constraintName := by
    rw [List.map_map]
    exact List.map_congr_left hname
  have st : Steps db (t.tableSchema, t.tableName)
      ⟨endCols e drop s t, fewerCons e drop s t r (dropNames DK RK), (endTbl e drop s t).idx⟩
      (((newKeys s t ++ RK).map (conOf .sqlserver e.cur)).map Act.addConstraint)
      (tblB e drop s t r) := by
    refine steps_addConstraints h.consistent h.between hm h.newTbl (g := (tblB e drop s t r).con)
      (t := ⟨endCols e drop s t, fewerCons e drop s t r (dropNames DK RK), (endTbl e drop s t).idx⟩)
      ?_ ?_ (fun n hn => hn) _ ?_ ?_ ?_
    · exact fits_way h ch (fun n c hc => Or.inr (Or.inr hc)) (Or.inr (Or.inl rfl)) (Or.inr (Or.inr rfl))
    · exact fits_way h ch (fun n c hc => Or.inr (Or.inr hc)) (Or.inr (Or.inr rfl)) (Or.inr (Or.inr rfl))
    · rw [hnm]; exact nodup_AC h ch
    · intro c hc
      obtain ⟨y, hy, rfl⟩ := List.mem_map.1 hc
      rw [hname y hy]
      obtain ⟨h1, h2, h3, h4, h5⟩ := con_added h ch hy
      refine ⟨h1, h2, h3, by rw [isF_conOf]; exact key_not_foreign h4, ?_, ?_⟩
      · intro x1 x2 x3 hk
        have hk : kindOf .sqlserver e.cur y = .exclude x1 x2 x3 := hk
        unfold keyConstraint at h4
        simp only [Bool.or_eq_true, beq_iff_eq] at h4
        unfold kindOf at hk
        rcases h4 with h4 | h4
        · rw [if_pos (show y.constraintType = b!"PRIMARY KEY" from h4)] at hk
          cases hk
        · rw [if_neg (by rw [h4]; decide), if_pos (show y.constraintType = b!"UNIQUE" from h4)] at hk
          cases hk
      · intro cs hk
        obtain ⟨k1, rfl⟩ := kind_primary.1 hk
        exact primary_added h ch hy k1
    · intro n hn
      rw [hnm] at hn
      exact con_rest h ch hn
  have := steps_alter (N := N) (e := e) h.ok.schema st
  rw [List.map_map, List.map_map] at this
  exact this

include h ch hm in
/-- The statements for a table lead from its first to its last version. -/
theorem runs_alter : Runs N (db.withTable (t.tableSchema, t.tableName) (tblA e drop s t r))
    (Sqddl.Sqlserver.alterOf e a) (db.withTable (t.tableSchema, t.tableName) (tblB e drop s t r)) := by
  unfold Sqddl.Sqlserver.alterOf Sqddl.Sqlserver.alterFileOf
  dsimp only
  rw [ch.destTable]
  exact runs_append (runs_append (runs_append (runs_append (runs_append (runs_append (runs_1 h ch hm)
    (runs_2 h ch hm)) (runs_3 h ch)) (runs_4 h ch)) (runs_5 h ch hm)) (runs_6 h ch hm)) (runs_7 h ch hm)

include h ch in
/-- If nothing is written for a table nothing is to be done. -/
theorem nothing_to_do (hw : a.worthKeeping = false) : Sqddl.Sqlserver.alterOf e a = [] := by
  unfold AlterTable.worthKeeping at hw
  simp only [Bool.or_eq_false_iff, Bool.not_eq_false', List.isEmpty_iff] at hw
  obtain ⟨⟨⟨⟨⟨⟨w1, w2⟩, w3⟩, w4⟩, w5⟩, w6⟩, w7⟩ := hw
  have w8 : a.dropColumns = [] := by
    rw [ch.dropColumns]
    cases hl : lostCols drop s t with
    | nil => rfl
    | cons y l =>
      exfalso
      have hy : y ∈ lostCols drop s t := by rw [hl]; exact .head _
      have hd : drop = true := by
        cases drop with
        | true => rfl
        | false => exact absurd hy (by unfold lostCols; simp)
      unfold lostCols at hy
      rw [if_pos hd] at hy
      obtain ⟨hy1, hy2⟩ := List.mem_filter.1 hy
      have none_of : ∀ {α : Type} {x : α} {l : List α}, l = [] → x ∉ l := by
        intro α x l hl hx; rw [hl] at hx; cases hx
      rw [ch.dropConstraints] at w1
      rw [ch.dropIndexes] at w2
      rw [ch.addColumns] at w3
      rw [ch.alterColumns] at w4
      rw [ch.createIndexes] at w6
      rw [ch.addConstraints] at w7
      rcases (h.ok.pair.surplusColumns hd ⟨y, hy1, hy2⟩).1 with
        ⟨x, h1, h2⟩ | ⟨x, h1, h2⟩ | ⟨x, h1, h2, h3⟩ | ⟨q, h1, h2⟩ | ⟨_, ⟨x, h1, h2⟩ | ⟨x, h1, h2, h3⟩⟩
      · exact none_of w3 (x := x) (List.mem_filter.2 ⟨h1, by rw [h2]; rfl⟩)
      · exact none_of w6 (x := x) (List.mem_append.2 (Or.inl (List.mem_filter.2 ⟨h1, by rw [h2]; rfl⟩)))
      · exact none_of w7 (x := x) (List.mem_append.2 (Or.inl (List.mem_filter.2 ⟨h1, by rw [h2, h3]; rfl⟩)))
      · refine none_of w4 (x := q) (List.mem_filter.2 ⟨h1, ?_⟩)
        have hal := h.ok.pair.columns q h1
        exact different hal.defaults.1 hal.defaults.2 (Or.inr (Or.inr (Or.inl h2)))
      · exact none_of w2 (x := x) (List.mem_append.2 (Or.inl (mem_lost.2 ⟨h1, hd, h2⟩)))
      · refine none_of w1 (x := x) (List.mem_append.2 (Or.inl ((ch.dk x).2 ⟨h1, h2, ?_⟩)))
        exact (goalCon_src h.ok (find_src h.ok h1)).2.2 ⟨h3, Or.inl hd⟩
  unfold Sqddl.Sqlserver.alterOf Sqddl.Sqlserver.alterFileOf
  rw [w1, w2, w3, w4, w6, w7, w8]
  rfl

include h ch hm in
/-- What is written for a table leads from its first to its last version. -/
theorem runs_written : Runs N (db.withTable (t.tableSchema, t.tableName) (tblA e drop s t r))
    (if a.worthKeeping then Sqddl.Sqlserver.alterOf e a else [])
    (db.withTable (t.tableSchema, t.tableName) (tblB e drop s t r)) := by
  have := runs_alter h ch hm
  split
  · exact this
  · rename_i hw
    rw [nothing_to_do h ch (by simpa using hw)] at this
    exact this

end

end MsSpec
