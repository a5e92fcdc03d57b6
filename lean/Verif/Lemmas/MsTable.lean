import Verif.Lemmas.MsLists

/-!
# The statements for a table that both versions of a SQL Server database have
-/

namespace MsSpec
open SqlSpec Sqddl DdlText DdlSpec EngineSpec Sqddl.Sqlserver
open MsText (Act Differs OneDiffers)
open PgSpec (gone lostCols newCols newKeys lostIdxs newIdxs primary_isKey withTable_self withTable_other)
open CatalogSpec (keyConstraint foreignKey liveColumns liveConstraints liveIndexes hasColumn hasIndex
  hasConstraint commonTables TableOk liveTables)

theorem nodup_names {α : Type} {f : α → Str} {l : List α} (h : l.Nodup)
    (hf : ∀ x ∈ l, ∀ y ∈ l, f x = f y → x = y) : (l.map f).Nodup := by
  induction l with
  | nil => exact List.nodup_nil
  | cons x l ih =>
    rw [List.map_cons, List.nodup_cons]
    obtain ⟨h1, h2⟩ := List.nodup_cons.1 h
    refine ⟨?_, ih h2 fun a ha b hb => hf a (.tail _ ha) b (.tail _ hb)⟩
    intro hm
    obtain ⟨y, hy, e⟩ := List.mem_map.1 hm
    rw [hf y (.tail _ hy) x (.head _) e] at hy
    exact h1 hy

theorem names_nodup {α : Type} {f : α → Str} {l : List α} (h : (l.map f).Nodup) : l.Nodup := by
  induction l with
  | nil => exact List.nodup_nil
  | cons x l ih =>
    rw [List.map_cons, List.nodup_cons] at h
    exact List.nodup_cons.2 ⟨fun hm => h.1 (List.mem_map.2 ⟨x, hm, rfl⟩), ih h.2⟩

/-! ## What a table becomes -/

/-- The columns at the end. -/
def endCols (e : Env) (drop : Bool) (s t : Table) (n : Str) : Option Col :=
  match (liveColumns s).find? (fun c => c.columnName == n),
    (liveColumns t).find? (fun c => c.columnName == n) with
  | some a, some b => some (if columnsAreDifferent .sqlserver e.coll a b then endCol e (pkeyColumns t) a b
      else colOf .sqlserver e.coll false a)
  | some a, none => if drop then none else some (colOf .sqlserver e.coll false a)
  | none, y => y.map (colOf .sqlserver e.coll false)

/-- The table at the end. -/
def endTbl (e : Env) (drop : Bool) (s t : Table) : Tbl where
  col := endCols e drop s t
  con := goalCon e.cur drop s t
  idx n := newer drop ((tblOf e.cur e.coll s).idx n) ((tblOf e.cur e.coll t).idx n)

/-- What is known before the statements for a table. -/
structure Scene (N : Numbers) (S G : Db) (R : Key → Str → Prop) (e : Env) (drop : Bool) (s t : Table)
    (r : Str → Bool) : Prop where
  ok : PairOk e.cur e.coll drop s t
  old : Consistent S
  consistent : Consistent G
  between : Between S G
  oldTbl : S.table (t.tableSchema, t.tableName) = some (tblOf e.cur e.coll s)
  newTbl : G.table (t.tableSchema, t.tableName) = some (endTbl e drop s t)
  fitsA : Fits S G R (t.tableSchema, t.tableName) ((tblOf e.cur e.coll s).cut fun n =>
    (goalCon e.cur drop s t n).isNone || r n)
  fitsB : Fits S G R (t.tableSchema, t.tableName) ((endTbl e drop s t).cut fun n =>
    ((liveConstraints s).find? fun c => c.constraintName == n).isNone || r n)
  redo : ∀ x ∈ liveConstraints s, foreignKey x = true →
    goalCon e.cur drop s t x.constraintName ≠ none → Hit e.coll s t x.columns →
    r x.constraintName = true
  keys : ∀ x ∈ liveConstraints s, keyConstraint x = true →
    goalCon e.cur drop s t x.constraintName = none ∨ Hit e.coll s t x.columns →
    Free S G R (t.tableSchema, t.tableName) x.columns
  idxs : ∀ x ∈ liveIndexes s, x.isUnique = true →
    drop = true ∧ hasIndex t x.indexName = false ∨ Hit e.coll s t x.columns →
    Free S G R (t.tableSchema, t.tableName) (idxNames (idxOf .sqlserver e.cur false true x))
  find : ∀ q ∈ CatalogSpec.commonColumns s t, q.1.columnDefault ≠ [] →
    q.1.columnDefault ≠ q.2.columnDefault →
    ∀ d, d ≠ q.1.columnName → HasDefault S (t.tableSchema, t.tableName) d ∨
        HasDefault G (t.tableSchema, t.tableName) d →
      ¬ N.other q.1.columnName (N.num (t.tableSchema, t.tableName) d) ∧
      ∀ k, HasCol S k q.1.columnName ∨ HasCol G k q.1.columnName →
        N.num k q.1.columnName ≠ N.num (t.tableSchema, t.tableName) d

section
variable {N : Numbers} {S G : Db} {R : Key → Str → Prop} {e : Env} {drop : Bool} {s t : Table}
  {r : Str → Bool} (h : Scene N S G R e drop s t r)
  {a : AlterTable} {DK RK : List Constraint} {RI : List Index}
  (ch : Changes e.cur e.coll drop s t a DK RK RI)

/-- The first state of the table. -/
abbrev tblA (e : Env) (drop : Bool) (s t : Table) (r : Str → Bool) : Tbl :=
  (tblOf e.cur e.coll s).cut fun n => (goalCon e.cur drop s t n).isNone || r n

/-- The last state of the table. -/
abbrev tblB (e : Env) (drop : Bool) (s t : Table) (r : Str → Bool) : Tbl :=
  (endTbl e drop s t).cut fun n =>
    ((liveConstraints s).find? fun c => c.constraintName == n).isNone || r n

/-! ### Constraints -/

/-- The constraints after those are dropped that are to be dropped. -/
def fewerCons (e : Env) (drop : Bool) (s t : Table) (r : Str → Bool) (DC : List Str) (n : Str) : Option Con :=
  if n ∈ DC then none else (tblA e drop s t r).con n

theorem conA {n : Str} {x : Constraint}
    (hx : (liveConstraints s).find? (fun c => c.constraintName == n) = some x) :
    (tblA e drop s t r).con n =
      if (foreignKey x && ((goalCon e.cur drop s t n).isNone || r n)) = true then none
      else some (conOf .sqlserver e.cur x) := by
  show (((liveConstraints s).find? fun c => c.constraintName == n).map (conOf .sqlserver e.cur)).filter _ = _
  rw [hx, Option.map_some, Option.filter_some, isF_conOf]
  cases (foreignKey x && ((goalCon e.cur drop s t n).isNone || r n)) <;> rfl

theorem conA_none {n : Str}
    (hx : (liveConstraints s).find? (fun c => c.constraintName == n) = none) :
    (tblA e drop s t r).con n = none := by
  show (((liveConstraints s).find? fun c => c.constraintName == n).map (conOf .sqlserver e.cur)).filter _ = _
  rw [hx]; rfl

theorem conB {n : Str} {c : Con} (hc : goalCon e.cur drop s t n = some c) (hF : isF c = false) :
    (tblB e drop s t r).con n = some c := by
  rw [cut_con]
  exact ⟨hc, by rw [hF]; rfl⟩

theorem conB_goal {n : Str} {c : Con} (hc : (tblB e drop s t r).con n = some c) :
    goalCon e.cur drop s t n = some c := (cut_con.1 hc).1

include ch in
/-- The names of constraints that are dropped. -/
theorem mem_DC (h0 : PairOk e.cur e.coll drop s t) {n : Str} {x : Constraint}
    (hx : (liveConstraints s).find? (fun c => c.constraintName == n) = some x) :
    n ∈ (DK ++ RK).map (fun c => c.constraintName) ↔ keyConstraint x = true ∧
      (goalCon e.cur drop s t n = none ∨ Hit e.coll s t x.columns) := by
  obtain ⟨hx1, rfl⟩ := find_some hx
  rw [List.mem_map]
  constructor
  · rintro ⟨y, hy, hn⟩
    have key : ∀ y ∈ liveConstraints s, y.constraintName = x.constraintName → y = x := by
      intro y hy hn
      have := find_src h0 hy
      rw [hn, hx] at this
      cases this; rfl
    rcases List.mem_append.1 hy with hy | hy
    · obtain ⟨h1, h2, h3⟩ := (ch.dk y).1 hy
      have := key y h1 hn
      subst this
      exact ⟨h2, Or.inl h3⟩
    · obtain ⟨h1, h2, h3, h4⟩ := (ch.rk y).1 hy
      have := key y h1 hn
      subst this
      exact ⟨h2, Or.inr h4⟩
  · rintro ⟨h1, h2⟩
    refine ⟨x, ?_, rfl⟩
    by_cases hg : goalCon e.cur drop s t x.constraintName = none
    · exact List.mem_append.2 (Or.inl ((ch.dk x).2 ⟨hx1, h1, hg⟩))
    · exact List.mem_append.2 (Or.inr ((ch.rk x).2 ⟨hx1, h1, hg, h2.resolve_left hg⟩))

include h ch in
theorem nodup_DC : ((DK ++ RK).map fun c => c.constraintName).Nodup := by
  refine nodup_names ?_ ?_
  · refine List.nodup_append.2 ⟨ch.dkNodup, ch.rkNodup, ?_⟩
    rintro x hx y hy rfl
    exact ((ch.rk x).1 hy).2.2.1 ((ch.dk x).1 hx).2.2
  · intro x hx y hy e1
    have live : ∀ z ∈ DK ++ RK, z ∈ liveConstraints s := by
      intro z hz
      rcases List.mem_append.1 hz with hz | hz
      · exact ((ch.dk z).1 hz).1
      · exact ((ch.rk z).1 hz).1
    have h1 := find_src h.ok (live x hx)
    rw [e1, find_src h.ok (live y hy)] at h1
    cases h1; rfl

include h ch in
/-- The constraints in between. -/
theorem fewer_some {n : Str} {c : Con}
    (hc : fewerCons e drop s t r ((DK ++ RK).map fun c => c.constraintName) n = some c) :
    ∃ x, (liveConstraints s).find? (fun c => c.constraintName == n) = some x ∧
      c = conOf .sqlserver e.cur x ∧ goalCon e.cur drop s t n = some c ∧
      ((keyConstraint x = true ∨ foreignKey x = true) → ¬ Hit e.coll s t x.columns) := by
  unfold fewerCons at hc
  split at hc
  · cases hc
  · rename_i hn
    cases hx : (liveConstraints s).find? fun c => c.constraintName == n with
    | none => rw [conA_none hx] at hc; cases hc
    | some x =>
      refine ⟨x, rfl, ?_⟩
      rw [conA hx] at hc
      split at hc
      · cases hc
      · rename_i hf
        cases hc
        rw [mem_DC ch h.ok hx] at hn
        obtain ⟨hx1, rfl⟩ := find_some hx
        have hg : goalCon e.cur drop s t x.constraintName ≠ none := by
          intro hg
          rw [hg] at hf
          have hkey : keyConstraint x = false := by
            cases hk : keyConstraint x with
            | false => rfl
            | true => exact absurd ⟨hk, Or.inl hg⟩ hn
          have hfk : foreignKey x = false := by simpa using hf
          obtain ⟨g1, g2⟩ := (goalCon_src h.ok hx).2.1 hg
          have hd : drop = true := by
            rcases g2 with g2 | g2
            · exact g2
            · rw [primary_isKey g2.1] at hkey; cases hkey
          rw [h.ok.pair.surplusChecks hd x hx1 hkey hfk] at g1
          cases g1
        have hg2 := (goalCon_src h.ok hx).1.resolve_right hg
        refine ⟨rfl, hg2, ?_⟩
        rintro (hk | hk) hh
        · exact hn ⟨hk, Or.inr hh⟩
        · rw [h.redo x hx1 hk hg hh, hk] at hf
          simp at hf

include h ch in
/-- The constraints that are neither dropped nor added. -/
theorem con_rest {n : Str} (hn : n ∉ (newKeys s t ++ RK).map fun c => c.constraintName) :
    fewerCons e drop s t r ((DK ++ RK).map fun c => c.constraintName) n = (tblB e drop s t r).con n := by
  cases hx : (liveConstraints s).find? fun c => c.constraintName == n with
  | none =>
    have e1 : fewerCons e drop s t r ((DK ++ RK).map fun c => c.constraintName) n = none := by
      unfold fewerCons
      split
      · rfl
      · exact conA_none hx
    rw [e1]
    symm
    cases hb : (tblB e drop s t r).con n with
    | none => rfl
    | some c =>
      exfalso
      obtain ⟨hg, hF⟩ := cut_con.1 hb
      have hg : goalCon e.cur drop s t n = some c := hg
      rw [hx] at hF
      simp only [Option.isNone_none, Bool.true_or, Bool.and_true] at hF
      unfold goalCon at hg
      rw [hx] at hg
      cases hy : (liveConstraints t).find? fun c => c.constraintName == n with
      | none => rw [hy] at hg; cases hg
      | some y =>
        rw [hy] at hg
        cases hg
        rw [isF_conOf] at hF
        obtain ⟨hy1, rfl⟩ := find_some hy
        have hs : hasConstraint s y.constraintName = false := by
          rw [hasConstraint_find, hx]; rfl
        cases hk : keyConstraint y with
        | false =>
          rw [h.ok.pair.checks y hy1 hk hF] at hs
          cases hs
        | true =>
          refine hn (List.mem_map.2 ⟨y, List.mem_append.2 (Or.inl ?_), rfl⟩)
          exact List.mem_filter.2 ⟨hy1, by rw [hk, hs]; rfl⟩
  | some x =>
    obtain ⟨hx1, hx2⟩ := find_some hx
    have hnd := mem_DC ch h.ok hx
    cases hg : goalCon e.cur drop s t n with
    | none =>
      have e2 : (tblB e drop s t r).con n = none := by
        cases hb : (tblB e drop s t r).con n with
        | none => rfl
        | some c => rw [conB_goal hb] at hg; cases hg
      rw [e2]
      cases hf : fewerCons e drop s t r ((DK ++ RK).map fun c => c.constraintName) n with
      | none => rfl
      | some c =>
        obtain ⟨_, _, _, h3, _⟩ := fewer_some h ch hf
        rw [hg] at h3; cases h3
    | some c =>
      have hc : c = conOf .sqlserver e.cur x := by
        have := (goalCon_src h.ok hx).1
        rw [hg] at this
        simpa using this
      subst hc
      have hb : (tblB e drop s t r).con n = (goalCon e.cur drop s t n).filter fun c =>
          !(isF c && (((liveConstraints s).find? fun c => c.constraintName == n).isNone || r n)) := rfl
      rw [hb, hg, hx, Option.filter_some, isF_conOf]
      have hno : n ∉ (DK ++ RK).map fun c => c.constraintName := by
        rw [hnd, hg]
        rintro ⟨hk, h1 | h1⟩
        · cases h1
        · refine hn (List.mem_map.2 ⟨x, List.mem_append.2 (Or.inr ?_), hx2⟩)
          exact (ch.rk x).2 ⟨hx1, hk, by rw [hx2, hg]; simp, h1⟩
      have e1 : fewerCons e drop s t r ((DK ++ RK).map fun c => c.constraintName) n =
          (tblA e drop s t r).con n := if_neg hno
      rw [e1, conA hx, hg]
      simp only [Option.isNone_some, Bool.false_or]
      cases foreignKey x && r n <;> rfl

include h ch in
/-- The constraints that are added. -/
theorem con_added {y : Constraint} (hy : y ∈ newKeys s t ++ RK) :
    fewerCons e drop s t r ((DK ++ RK).map fun c => c.constraintName) y.constraintName = none ∧
    (tblB e drop s t r).con y.constraintName = some (conOf .sqlserver e.cur y) ∧
    goalCon e.cur drop s t y.constraintName = some (conOf .sqlserver e.cur y) ∧
    keyConstraint y = true ∧ y.constraintName ≠ [] := by
  rcases List.mem_append.1 hy with hy | hy
  · obtain ⟨h1, h2⟩ := List.mem_filter.1 hy
    simp only [Bool.and_eq_true, Bool.not_eq_true'] at h2
    have hx : (liveConstraints s).find? (fun c => c.constraintName == y.constraintName) = none := by
      have := h2.2
      rw [hasConstraint_find] at this
      simpa using this
    have hg := goalCon_dest (cur := e.cur) (drop := drop) (s := s) (find_dest h.ok h1)
    refine ⟨?_, conB hg (by rw [isF_conOf]; exact key_not_foreign h2.1), hg, h2.1, named h.ok.dest h1⟩
    unfold fewerCons
    split
    · rfl
    · exact conA_none hx
  · obtain ⟨h1, h2, h3, h4⟩ := (ch.rk y).1 hy
    have hg := (goalCon_src h.ok (find_src h.ok h1)).1.resolve_right h3
    refine ⟨?_, conB hg (by rw [isF_conOf]; exact key_not_foreign h2), hg, h2, named h.ok.src h1⟩
    exact if_pos ((mem_DC ch h.ok (find_src h.ok h1)).2 ⟨h2, Or.inr h4⟩)

include h ch in
theorem nodup_AC : ((newKeys s t ++ RK).map fun c => c.constraintName).Nodup := by
  rw [List.map_append]
  refine List.nodup_append.2 ⟨?_, ?_, ?_⟩
  · exact nodup_filter (nodup_constraints h.ok.dest) _
  · have := nodup_DC h ch
    rw [List.map_append] at this
    exact (List.nodup_append.1 this).2.1
  · intro m hm m' hm' e1
    subst e1
    obtain ⟨x, hx, rfl⟩ := List.mem_map.1 hm
    obtain ⟨y, hy, e2⟩ := List.mem_map.1 hm'
    have h2 := (List.mem_filter.1 hx).2
    simp only [Bool.and_eq_true, Bool.not_eq_true'] at h2
    rw [hasConstraint_find, ← e2, find_src h.ok ((ch.rk y).1 hy).1] at h2
    cases h2.2

include h ch in
theorem con_dropped {x : Constraint} (hx : x ∈ DK ++ RK) :
    (tblA e drop s t r).con x.constraintName = some (conOf .sqlserver e.cur x) ∧
    ∀ cols, (conOf .sqlserver e.cur x).kind = .primary cols ∨ (conOf .sqlserver e.cur x).kind = .unique cols →
      Free S G R (t.tableSchema, t.tableName) cols := by
  have hh : x ∈ liveConstraints s ∧ keyConstraint x = true ∧
      (goalCon e.cur drop s t x.constraintName = none ∨ Hit e.coll s t x.columns) := by
    rcases List.mem_append.1 hx with hx | hx
    · obtain ⟨h1, h2, h3⟩ := (ch.dk x).1 hx
      exact ⟨h1, h2, Or.inl h3⟩
    · obtain ⟨h1, h2, h3, h4⟩ := (ch.rk x).1 hx
      exact ⟨h1, h2, Or.inr h4⟩
  obtain ⟨h1, h2, h3⟩ := hh
  constructor
  · rw [conA (find_src h.ok h1), key_not_foreign h2]
    simp
  · intro cols hk
    obtain ⟨_, rfl⟩ := kind_key hk
    exact h.keys x h1 h2 h3

/-! ### Indexes -/

/-- The indexes after those are dropped that are to be dropped. -/
def fewerIdxs (e : Env) (s : Table) (DI : List Str) (n : Str) : Option Idx :=
  if n ∈ DI then none else (tblOf e.cur e.coll s).idx n

theorem find_srcIdx (h0 : PairOk e.cur e.coll drop s t) {x : Index} (hx : x ∈ liveIndexes s) :
    (liveIndexes s).find? (fun c => c.indexName == x.indexName) = some x :=
  find?_self (k := fun c : Index => c.indexName) (nodup_indexes h0.src) hx

theorem find_destIdx (h0 : PairOk e.cur e.coll drop s t) {x : Index} (hx : x ∈ liveIndexes t) :
    (liveIndexes t).find? (fun c => c.indexName == x.indexName) = some x :=
  find?_self (k := fun c : Index => c.indexName) (nodup_indexes h0.dest) hx

theorem mem_lost {x : Index} : x ∈ lostIdxs drop s t ↔
    x ∈ liveIndexes s ∧ drop = true ∧ hasIndex t x.indexName = false := by
  unfold lostIdxs
  cases drop <;> simp [List.mem_filter]

include ch in
/-- The names of indexes that are dropped. -/
theorem mem_DI (h0 : PairOk e.cur e.coll drop s t) {n : Str} {x : Index}
    (hx : (liveIndexes s).find? (fun c => c.indexName == n) = some x) :
    n ∈ (lostIdxs drop s t ++ RI).map (fun c => c.indexName) ↔
      (drop = true ∧ hasIndex t n = false) ∨ Hit e.coll s t x.columns := by
  obtain ⟨hx1, rfl⟩ := find_some hx
  rw [List.mem_map]
  constructor
  · rintro ⟨y, hy, hn⟩
    have key : ∀ y ∈ liveIndexes s, y.indexName = x.indexName → y = x := by
      intro y hy hn
      have := find_srcIdx h0 hy
      rw [hn, hx] at this
      cases this; rfl
    rcases List.mem_append.1 hy with hy | hy
    · obtain ⟨h1, h2⟩ := mem_lost.1 hy
      have := key y h1 hn
      subst this
      exact Or.inl h2
    · obtain ⟨h1, h2, h3⟩ := (ch.ri y).1 hy
      have := key y h1 hn
      subst this
      exact Or.inr h3
  · intro h1
    refine ⟨x, ?_, rfl⟩
    by_cases hg : drop = true ∧ hasIndex t x.indexName = false
    · exact List.mem_append.2 (Or.inl (mem_lost.2 ⟨hx1, hg⟩))
    · exact List.mem_append.2 (Or.inr ((ch.ri x).2 ⟨hx1, hg, h1.resolve_left hg⟩))

include h ch in
theorem nodup_DI : ((lostIdxs drop s t ++ RI).map fun c => c.indexName).Nodup := by
  refine nodup_names ?_ ?_
  · refine List.nodup_append.2 ⟨?_, ch.riNodup, ?_⟩
    · unfold lostIdxs
      split
      · exact names_nodup (nodup_filter (nodup_indexes h.ok.src) _)
      · exact List.nodup_nil
    · rintro x hx y hy rfl
      exact ((ch.ri x).1 hy).2.1 (mem_lost.1 hx).2
  · intro x hx y hy e1
    have live : ∀ z ∈ lostIdxs drop s t ++ RI, z ∈ liveIndexes s := by
      intro z hz
      rcases List.mem_append.1 hz with hz | hz
      · exact (mem_lost.1 hz).1
      · exact ((ch.ri z).1 hz).1
    have h1 := find_srcIdx h.ok (live x hx)
    rw [e1, find_srcIdx h.ok (live y hy)] at h1
    cases h1; rfl

theorem idxS (n : Str) : (tblOf e.cur e.coll s).idx n =
    ((liveIndexes s).find? fun x => x.indexName == n).map (idxOf .sqlserver e.cur false true) := rfl

/-- What becomes of an index of the first version. -/
theorem idx_src (h0 : PairOk e.cur e.coll drop s t) {n : Str} {x : Index}
    (hx : (liveIndexes s).find? (fun c => c.indexName == n) = some x) :
    (endTbl e drop s t).idx n = if drop = true ∧ hasIndex t n = false then none
      else some (idxOf .sqlserver e.cur false true x) := by
  show newer drop ((tblOf e.cur e.coll s).idx n) ((tblOf e.cur e.coll t).idx n) = _
  rw [idxS, idxS, hx, hasIndex_find]
  cases hy : (liveIndexes t).find? fun c => c.indexName == n with
  | none => cases drop <;> simp [newer]
  | some y =>
    have := h0.pair.indexes x (find_some hx).1 y (find_some hy).1
      ((find_some hx).2.trans (find_some hy).2.symm)
    simp [newer, this]

include h ch in
theorem fewerIdx_some {n : Str} {c : Idx}
    (hc : fewerIdxs e s ((lostIdxs drop s t ++ RI).map fun c => c.indexName) n = some c) :
    ∃ x, (liveIndexes s).find? (fun c => c.indexName == n) = some x ∧
      c = idxOf .sqlserver e.cur false true x ∧ (endTbl e drop s t).idx n = some c ∧
      ¬ (drop = true ∧ hasIndex t n = false) ∧ ¬ Hit e.coll s t x.columns := by
  unfold fewerIdxs at hc
  split at hc
  · cases hc
  · rename_i hn
    rw [idxS] at hc
    cases hx : (liveIndexes s).find? fun c => c.indexName == n with
    | none => rw [hx] at hc; cases hc
    | some x =>
      rw [hx] at hc
      cases hc
      rw [mem_DI ch h.ok hx, not_or] at hn
      refine ⟨x, rfl, rfl, ?_, hn.1, hn.2⟩
      rw [idx_src h.ok hx, if_neg hn.1]

include h ch in
theorem idx_rest {n : Str} (hn : n ∉ (newIdxs s t ++ RI).map fun c => c.indexName) :
    fewerIdxs e s ((lostIdxs drop s t ++ RI).map fun c => c.indexName) n = (endTbl e drop s t).idx n := by
  cases hf : fewerIdxs e s ((lostIdxs drop s t ++ RI).map fun c => c.indexName) n with
  | some c =>
    obtain ⟨_, _, _, h3, _⟩ := fewerIdx_some h ch hf
    exact h3.symm
  | none =>
    cases hx : (liveIndexes s).find? fun c => c.indexName == n with
    | none =>
      show none = newer drop ((tblOf e.cur e.coll s).idx n) ((tblOf e.cur e.coll t).idx n)
      rw [idxS, idxS, hx]
      cases hy : (liveIndexes t).find? fun c => c.indexName == n with
      | none => cases drop <;> rfl
      | some y =>
        exfalso
        obtain ⟨hy1, rfl⟩ := find_some hy
        refine hn (List.mem_map.2 ⟨y, List.mem_append.2 (Or.inl ?_), rfl⟩)
        exact List.mem_filter.2 ⟨hy1, by rw [hasIndex_find, hx]; rfl⟩
    | some x =>
      rw [idx_src h.ok hx]
      split
      · rfl
      · rename_i hg
        exfalso
        have : n ∈ (lostIdxs drop s t ++ RI).map fun c => c.indexName := by
          unfold fewerIdxs at hf
          split at hf
          · assumption
          · rw [idxS, hx] at hf; cases hf
        have hh := ((mem_DI ch h.ok hx).1 this).resolve_left hg
        obtain ⟨hx1, rfl⟩ := find_some hx
        exact hn (List.mem_map.2 ⟨x, List.mem_append.2 (Or.inr ((ch.ri x).2 ⟨hx1, hg, hh⟩)), rfl⟩)

include h ch in
theorem idx_added {y : Index} (hy : y ∈ newIdxs s t ++ RI) :
    fewerIdxs e s ((lostIdxs drop s t ++ RI).map fun c => c.indexName) y.indexName = none ∧
    (endTbl e drop s t).idx y.indexName = some (idxOf .sqlserver e.cur false true y) ∧
    y.tableSchema = t.tableSchema ∧ y.tableName = t.tableName := by
  rcases List.mem_append.1 hy with hy | hy
  · obtain ⟨h1, h2⟩ := List.mem_filter.1 hy
    have hx : (liveIndexes s).find? (fun c => c.indexName == y.indexName) = none := by
      rw [hasIndex_find] at h2
      simpa using h2
    refine ⟨?_, ?_, h.ok.destIndexes y (List.mem_filter.1 h1).1⟩
    · unfold fewerIdxs
      split
      · rfl
      · rw [idxS, hx]; rfl
    · show newer drop ((tblOf e.cur e.coll s).idx y.indexName) ((tblOf e.cur e.coll t).idx y.indexName) = _
      rw [idxS, idxS, find_destIdx h.ok h1]
      rfl
  · obtain ⟨h1, h2, h3⟩ := (ch.ri y).1 hy
    refine ⟨if_pos ((mem_DI ch h.ok (find_srcIdx h.ok h1)).2 (Or.inr h3)), ?_, ?_⟩
    · rw [idx_src h.ok (find_srcIdx h.ok h1), if_neg h2]
    · obtain ⟨h4, h5⟩ := h.ok.srcIndexes y (List.mem_filter.1 h1).1
      rw [h4, h5]
      exact ⟨h.ok.same.1.symm, h.ok.same.2.symm⟩

include h ch in
theorem nodup_AI : ((newIdxs s t ++ RI).map fun c => c.indexName).Nodup := by
  rw [List.map_append]
  refine List.nodup_append.2 ⟨?_, ?_, ?_⟩
  · exact nodup_filter (nodup_indexes h.ok.dest) _
  · have := nodup_DI h ch
    rw [List.map_append] at this
    exact (List.nodup_append.1 this).2.1
  · intro m hm m' hm' e1
    subst e1
    obtain ⟨x, hx, rfl⟩ := List.mem_map.1 hm
    obtain ⟨y, hy, e2⟩ := List.mem_map.1 hm'
    have h2 := (List.mem_filter.1 hx).2
    rw [hasIndex_find, ← e2, find_srcIdx h.ok ((ch.ri y).1 hy).1] at h2
    cases h2

include h ch in
theorem idx_dropped {x : Index} (hx : x ∈ lostIdxs drop s t ++ RI) :
    x.tableSchema = t.tableSchema ∧ x.tableName = t.tableName ∧
    (tblOf e.cur e.coll s).idx x.indexName = some (idxOf .sqlserver e.cur false true x) ∧
    ((idxOf .sqlserver e.cur false true x).unique = true →
      Free S G R (t.tableSchema, t.tableName) (idxNames (idxOf .sqlserver e.cur false true x))) := by
  have hh : x ∈ liveIndexes s ∧
      (drop = true ∧ hasIndex t x.indexName = false ∨ Hit e.coll s t x.columns) := by
    rcases List.mem_append.1 hx with hx | hx
    · obtain ⟨h1, h2⟩ := mem_lost.1 hx
      exact ⟨h1, Or.inl h2⟩
    · obtain ⟨h1, h2, h3⟩ := (ch.ri x).1 hx
      exact ⟨h1, Or.inr h3⟩
  obtain ⟨h4, h5⟩ := h.ok.srcIndexes x (List.mem_filter.1 hh.1).1
  refine ⟨h4.trans h.ok.same.1.symm, h5.trans h.ok.same.2.symm, ?_, fun hu => h.idxs x hh.1 hu hh.2⟩
  rw [idxS, find_srcIdx h.ok hh.1]; rfl

end

end MsSpec
