import Verif.Lemmas.Grouped
import Verif.Spec.ScriptKeys
import Verif.Props.ScriptRows

/-!
# C110: the constraints of MySQL are reported as they were defined
-/

namespace Sqddl.Scripts
open OwnSpec KeySpec

/-- the constraint is on a table that is asked for -/
def Asked (f : Filter) (k : Key) : Prop :=
  (f.system = true ∨ ¬ MyOwn k.schema) ∧ Wanted f.schemas f.excludeSchemas k.schema ∧
    Wanted f.tables f.excludeTables k.table

theorem myTable_iff {f : Filter} (hf : OneOf f.schemas f.excludeSchemas) (ht : OneOf f.tables f.excludeTables)
    (k : Key) : myTable f (tcRow k) = true ↔ Asked f k := by
  unfold myTable Asked tcRow
  rw [Bool.and_eq_true, myShown_iff hf, passes_iff ht, and_assoc]

/-- the rows of key_column_usage of a constraint bear its names -/
theorem kcuRows_names {k : Key} {u : MyKcu} (h : u ∈ kcuRows k) :
    u.schema = k.schema ∧ u.table = k.table ∧ u.name = k.name ∧ ∀ e, k.kind ≠ .check e := by
  unfold kcuRows at h
  cases hk : k.kind <;> rw [hk] at h <;> dsimp only at h <;>
    first
    | (obtain ⟨x, _, rfl⟩ := List.mem_map.mp h; exact ⟨rfl, rfl, rfl, fun e => by simp⟩)
    | cases h

theorem myJoin_own {k : Key} {u : MyKcu} (h : u ∈ kcuRows k) : myJoin (tcRow k) u = true := by
  obtain ⟨h1, h2, h3, _⟩ := kcuRows_names h
  unfold myJoin tcRow
  simp [h1, h2, h3]

theorem myJoin_other {db : List Key} (ha : MyApart db) {k k' : Key} (hk : k ∈ db) (hk' : k' ∈ db) (hne : k' ≠ k)
    (hc : ∀ e, k.kind ≠ .check e) {u : MyKcu} (h : u ∈ kcuRows k') : myJoin (tcRow k) u = false := by
  obtain ⟨h1, h2, h3, h4⟩ := kcuRows_names h
  by_cases hj : myJoin (tcRow k) u = true
  · unfold myJoin tcRow at hj
    simp only [Bool.and_eq_true, beq_iff_eq] at hj
    obtain ⟨⟨e1, e2⟩, e3⟩ := hj
    exact absurd (ha k' hk' k hk h4 hc (h1.symm.trans e1.symm) (h2.symm.trans e3.symm) (h3.symm.trans e2.symm)) hne
  · simpa using hj

/-- the text of the type of a primary key or unique constraint -/
def keyText : Bool → Str
  | true => b!"PRIMARY KEY"
  | false => b!"UNIQUE"

/-- the kind -/
def keyKind : Bool → Kind
  | true => .primary
  | false => .unique

theorem tcRow_type (b : Bool) (k : Key) : (tcRow k).type = keyText b ↔ k.kind = keyKind b := by
  unfold tcRow
  cases k.kind <;> cases b <;> simp [keyText, keyKind]

theorem kcuRows_key {b : Bool} {k : Key} (h : k.kind = keyKind b) :
    kcuRows k = (k.cols.zipIdx 1).map fun x => ⟨k.schema, k.table, k.name, x.2, x.1, none, none, none⟩ := by
  unfold kcuRows
  cases b <;> rw [h] <;> rfl

/-- C110: the primary keys (and unique constraints) of MySQL that are reported are those of the tables
that are asked for, each once, with its columns in their order, if the keys of a table have different
names. -/
theorem mysql_keys_partial (b : Bool) {f : Filter} {db : List Key} {c : MyInfo}
    (hf : OneOf f.schemas f.excludeSchemas) (ht : OneOf f.tables f.excludeTables) (hs : MyShows db c)
    (hv : MyValid db) (ha : MyApart db) :
    (∀ x, x ∈ myKeys (keyText b) f c ↔
      ∃ k ∈ db, k.kind = keyKind b ∧ Asked f k ∧ x = ((k.schema, k.table, k.name), k.cols)) ∧
    (myKeys (keyText b) f c).Nodup := by
  have hnc : ∀ k : Key, k.kind = keyKind b → ∀ e, k.kind ≠ .check e := by
    intro k h e; rw [h]; cases b <;> simp [keyKind]
  let sel : Key → Bool := fun k => (tcRow k).type == keyText b && myTable f (tcRow k)
  have hsel : ∀ k, sel k = true ↔ k.kind = keyKind b ∧ Asked f k := by
    intro k
    simp only [sel, Bool.and_eq_true, beq_iff_eq]
    rw [tcRow_type, myTable_iff hf ht]
  let view : Key → (Str × Str × Str) × List Str := fun k => ((k.schema, k.table, k.name), k.cols)
  have hp : (myKeys (keyText b) f c).Perm ((db.filter sel).map view) := by
    unfold myKeys
    refine grouped_perm 1 ?_ ?_ ?_
    · rw [List.map_map]
      refine map_nodup_of (hv.nodup.filter _) ?_
      intro i hi j hj e
      rw [List.mem_filter] at hi hj
      simp only [Function.comp, view, Prod.mk.injEq] at e
      exact ha i hi.1 j hj.1 (hnc i ((hsel i).mp hi.2).1) (hnc j ((hsel j).mp hj.2).1) e.1 e.2.1 e.2.2
    · intro i hi
      obtain ⟨k, hk, rfl⟩ := List.mem_map.mp hi
      rw [List.mem_filter] at hk
      exact hv.cols k hk.1 (hnc k ((hsel k).mp hk.2).1)
    · refine (join_perm _ hv.nodup hs.tc hs.kcu ?_).trans (.of_eq ?_)
      · intro i hi j hj hji u hu
        refine if_neg ?_
        intro h
        simp only [Bool.and_eq_true] at h
        by_cases hc : i.kind = keyKind b
        · rw [myJoin_other ha hi hj hji (hnc i hc) hu] at h
          exact Bool.false_ne_true h.1.1
        · exact hc ((tcRow_type b i).mp (by simpa using h.1.2))
      · rw [List.flatMap_map, ← flatMap_if]
        refine congrArg (db.flatMap ·) (funext fun k => ?_)
        have hcond : ∀ u ∈ kcuRows k, (myJoin (tcRow k) u && (tcRow k).type == keyText b && myTable f (tcRow k)) = sel k := by
          intro u hu
          rw [myJoin_own hu, Bool.true_and]
        by_cases hk : sel k = true
        · rw [if_pos hk]
          have hkk := ((hsel k).mp hk).1
          rw [flatMap_congr (g := fun u => [((k.schema, k.table, k.name), u.pos, u.column)])
            (fun u hu => by rw [if_pos ((hcond u hu).trans hk)]; rfl)]
          rw [kcuRows_key hkk, List.flatMap_map]
          unfold spread
          rw [numbered_zipIdx, List.map_map, ← List.map_eq_flatMap]
          rfl
        · rw [if_neg hk, List.flatMap_eq_nil_iff]
          intro u hu
          rw [if_neg (by rw [hcond u hu]; exact hk)]
  constructor
  · intro x
    rw [hp.mem_iff, List.mem_map]
    constructor
    · rintro ⟨k, hk, rfl⟩
      rw [List.mem_filter, hsel] at hk
      exact ⟨k, hk.1, hk.2.1, hk.2.2, rfl⟩
    · rintro ⟨k, h1, h2, h3, rfl⟩
      exact ⟨k, List.mem_filter.mpr ⟨h1, (hsel k).mpr ⟨h2, h3⟩⟩, rfl⟩
  · refine hp.nodup_iff.mpr (map_nodup_of (hv.nodup.filter _) ?_)
    intro i hi j hj e
    rw [List.mem_filter] at hi hj
    simp only [view, Prod.mk.injEq] at e
    exact ha i hi.1 j hj.1 (hnc i ((hsel i).mp hi.2).1) (hnc j ((hsel j).mp hj.2).1) e.1.1 e.1.2.1 e.1.2.2

/-! ## Foreign keys -/

/-- a foreign key as it is to be reported -/
def foreignView (k : Key) : Option (MyForeign × List Str × List Str) :=
  match k.kind with
  | .foreign rs rt rc u d m => some (⟨k.schema, k.table, k.name, some rs, some rt, some (u, d, m)⟩, k.cols, rc)
  | _ => none

/-- the group of a foreign key with the pairs of its columns -/
def foreignGroup (k : Key) : MyForeign × List (Str × Option Str) :=
  match k.kind with
  | .foreign rs rt rc u d m =>
    (⟨k.schema, k.table, k.name, some rs, some rt, some (u, d, m)⟩, (k.cols.zip rc).map fun x => (x.1, some x.2))
  | _ => (⟨k.schema, k.table, k.name, none, none, none⟩, [])

theorem tcRow_foreign (k : Key) :
    (tcRow k).type = b!"FOREIGN KEY" ↔ ∃ rs rt rc u d m, k.kind = .foreign rs rt rc u d m := by
  unfold tcRow
  cases k.kind <;> simp

theorem myRules_own {db : List Key} {c : MyInfo} (hs : MyShows db c) (hv : MyValid db) {k : Key} (hk : k ∈ db)
    {rs rt rc u d m} (hkind : k.kind = .foreign rs rt rc u d m) : myRules c (tcRow k) = [some (u, d, m)] := by
  have hrow : rcRows k = [⟨k.schema, k.name, u, d, m⟩] := by unfold rcRows; rw [hkind]
  have hp : (c.rc.filter (fun r => r.schema == (tcRow k).schema && r.name == (tcRow k).name)).Perm (rcRows k) := by
    refine (hs.rc.filter _).trans (.of_eq ?_)
    refine filter_flatMap_only _ _ hk hv.nodup ?_ ?_
    · intro r hr
      rw [hrow, List.mem_singleton] at hr
      subst hr
      simp [tcRow]
    · intro j hj hji r hr
      by_cases h : (r.schema == (tcRow k).schema && r.name == (tcRow k).name) = true
      · simp only [Bool.and_eq_true, beq_iff_eq, tcRow] at h
        have hrj : r.schema = j.schema ∧ r.name = j.name := by
          unfold rcRows at hr
          cases hjk : j.kind <;> rw [hjk] at hr <;> dsimp only at hr <;>
            first
            | (rw [List.mem_singleton] at hr; subst hr; exact ⟨rfl, rfl⟩)
            | cases hr
        exact absurd (hv.foreignNames j hj k hk (fun e => by rw [e] at hr; cases hr) (by rw [hrow]; simp)
          (hrj.1.symm.trans h.1) (hrj.2.symm.trans h.2)) hji
      · simpa using h
  rw [hrow] at hp
  have := List.perm_singleton.mp hp
  unfold myRules
  rw [this]
  rfl

theorem zip_fst {a b : List Str} (h : b.length = a.length) : (a.zip b).map (·.1) = a :=
  List.map_fst_zip (by omega)

theorem zip_snd {a b : List Str} (h : b.length = a.length) : (a.zip b).map (·.2) = b :=
  List.map_snd_zip (by omega)

/-- C110: the foreign keys of MySQL that are reported are those of the tables that are asked for, each
once, with the table that is referenced, the pairs of columns in their order, the actions and the
matching, if the keys of a table have different names. -/
theorem mysql_foreign_partial {f : Filter} {db : List Key} {c : MyInfo}
    (hf : OneOf f.schemas f.excludeSchemas) (ht : OneOf f.tables f.excludeTables) (hs : MyShows db c)
    (hv : MyValid db) (ha : MyApart db) :
    (∀ x, x ∈ myForeign f c ↔ ∃ k ∈ db, Asked f k ∧ foreignView k = some x) ∧ (myForeign f c).Nodup := by
  let sel : Key → Bool := fun k => (tcRow k).type == b!"FOREIGN KEY" && myTable f (tcRow k)
  have hsel : ∀ k, sel k = true ↔ (∃ rs rt rc u d m, k.kind = .foreign rs rt rc u d m) ∧ Asked f k := by
    intro k
    simp only [sel, Bool.and_eq_true, beq_iff_eq]
    rw [tcRow_foreign, myTable_iff hf ht]
  have hnc : ∀ k : Key, sel k = true → ∀ e, k.kind ≠ .check e := by
    intro k h e
    obtain ⟨⟨rs, rt, rc, u, d, m, h1⟩, _⟩ := (hsel k).mp h
    rw [h1]; simp
  have hnames : ∀ k, (foreignGroup k).1.schema = k.schema ∧ (foreignGroup k).1.table = k.table ∧
      (foreignGroup k).1.name = k.name := by
    intro k
    unfold foreignGroup
    cases k.kind <;> exact ⟨rfl, rfl, rfl⟩
  have hinj : ∀ i ∈ db.filter sel, ∀ j ∈ db.filter sel, (foreignGroup i).1 = (foreignGroup j).1 → i = j := by
    intro i hi j hj e
    rw [List.mem_filter] at hi hj
    obtain ⟨i1, i2, i3⟩ := hnames i
    obtain ⟨j1, j2, j3⟩ := hnames j
    exact ha i hi.1 j hj.1 (hnc i hi.2) (hnc j hj.2) (by rw [← i1, ← j1, e]) (by rw [← i2, ← j2, e])
      (by rw [← i3, ← j3, e])
  have hp := grouped_perm 1 (items := (db.filter sel).map foreignGroup) (rows := c.tc.flatMap fun t =>
      c.kcu.flatMap fun u => (myRules c t).flatMap fun r =>
        if myJoin t u && t.type == b!"FOREIGN KEY" && myTable f t then
          [((⟨t.schema, t.table, t.name, u.refSchema, u.refTable, r⟩ : MyForeign), u.pos, u.column, u.refColumn)]
        else []) (by
      rw [List.map_map]
      exact map_nodup_of (hv.nodup.filter _) hinj) (by
      intro i hi
      obtain ⟨k, hk, rfl⟩ := List.mem_map.mp hi
      rw [List.mem_filter] at hk
      obtain ⟨⟨rs, rt, rc, u, d, m, h1⟩, _⟩ := (hsel k).mp hk.2
      have h2 := hv.cols k hk.1 (hnc k hk.2)
      have h3 := hv.foreign k hk.1 _ _ _ _ _ _ h1
      unfold foreignGroup
      rw [h1]
      dsimp only
      intro e
      have := congrArg List.length e
      rw [List.length_map, List.length_zip, h3, Nat.min_self] at this
      exact h2 (List.length_eq_zero_iff.mp this)) (by
      refine (join_perm _ hv.nodup hs.tc hs.kcu ?_).trans ?_
      · intro i hi j hj hji u hu
        rw [List.flatMap_eq_nil_iff]
        intro r _
        refine if_neg ?_
        intro h
        simp only [Bool.and_eq_true] at h
        obtain ⟨rs, rt, rc, u', d, m, hc⟩ := (tcRow_foreign i).mp (by simpa using h.1.2)
        rw [myJoin_other ha hi hj hji (by rw [hc]; simp) hu] at h
        exact Bool.false_ne_true h.1.1
      · rw [List.flatMap_map, ← flatMap_if]
        refine .of_eq (flatMap_congr fun k hk => ?_)
        by_cases hks : sel k = true
        · rw [if_pos hks]
          obtain ⟨⟨rs, rt, rc, u, d, m, h1⟩, _⟩ := (hsel k).mp hks
          rw [flatMap_congr (g := fun v : MyKcu =>
            [((⟨k.schema, k.table, k.name, v.refSchema, v.refTable, some (u, d, m)⟩ : MyForeign), v.pos, v.column,
              v.refColumn)]) (fun v hv' => by
              rw [myRules_own hs hv hk h1, List.flatMap_cons, List.flatMap_nil, List.append_nil, myJoin_own hv',
                Bool.true_and, if_pos hks]
              rfl)]
          have hrows : kcuRows k = ((k.cols.zip rc).zipIdx 1).map fun x =>
              ⟨k.schema, k.table, k.name, x.2, x.1.1, some rs, some rt, some x.1.2⟩ := by
            unfold kcuRows; rw [h1]
          have hgr : foreignGroup k = (⟨k.schema, k.table, k.name, some rs, some rt, some (u, d, m)⟩,
              (k.cols.zip rc).map fun x => (x.1, some x.2)) := by
            unfold foreignGroup; rw [h1]
          rw [hrows, hgr, List.flatMap_map]
          unfold spread
          rw [numbered_zipIdx, List.map_map, ← List.map_eq_flatMap, List.zipIdx_map, List.map_map]
          rfl
        · rw [if_neg hks, List.flatMap_eq_nil_iff]
          intro v hv'
          rw [List.flatMap_eq_nil_iff]
          intro r _
          rw [myJoin_own hv', Bool.true_and, if_neg hks])
  have hpv := hp.map (fun g : MyForeign × List (Str × Option Str) => (g.1, g.2.map (·.1), g.2.filterMap (·.2)))
  rw [List.map_map] at hpv
  have hview : ∀ k ∈ db, sel k = true → foreignView k =
      some ((foreignGroup k).1, (foreignGroup k).2.map (·.1), (foreignGroup k).2.filterMap (·.2)) := by
    intro k hk hks
    obtain ⟨⟨rs, rt, rc, u, d, m, h1⟩, _⟩ := (hsel k).mp hks
    have h3 := hv.foreign k hk _ _ _ _ _ _ h1
    unfold foreignView foreignGroup
    rw [h1]
    dsimp only
    rw [List.map_map, List.filterMap_map]
    have e1 : ((fun x : Str × Option Str => x.1) ∘ fun x : Str × Str => (x.1, some x.2)) = (·.1) := rfl
    have e2 : ((fun x : Str × Option Str => x.2) ∘ fun x : Str × Str => (x.1, some x.2)) = (fun x => some x.2) := rfl
    rw [e1, e2, zip_fst h3]
    have e3 : (k.cols.zip rc).filterMap (fun x => some x.2) = rc := by
      rw [show (fun x : Str × Str => some x.2) = some ∘ (·.2) from rfl, List.filterMap_eq_map]
      exact zip_snd h3
    rw [e3]
  constructor
  · intro x
    unfold myForeign
    rw [hpv.mem_iff, List.mem_map]
    constructor
    · rintro ⟨k, hk, rfl⟩
      rw [List.mem_filter] at hk
      exact ⟨k, hk.1, ((hsel k).mp hk.2).2, hview k hk.1 hk.2⟩
    · rintro ⟨k, h1, h2, h3⟩
      have hks : sel k = true := by
        rw [hsel]
        refine ⟨?_, h2⟩
        unfold foreignView at h3
        cases hkk : k.kind <;> rw [hkk] at h3 <;> first | cases h3; done | exact ⟨_, _, _, _, _, _, rfl⟩
      rw [hview k h1 hks] at h3
      exact ⟨k, List.mem_filter.mpr ⟨h1, hks⟩, Option.some.inj h3⟩
  · unfold myForeign
    refine hpv.nodup_iff.mpr (map_nodup_of (hv.nodup.filter _) ?_)
    intro i hi j hj e
    exact hinj i hi j hj (congrArg (·.1) e)

/-! ## Checks -/

/-- C110: the checks of MySQL that are reported are those of the tables that are asked for, each once
and with its expression, if no other constraint of the database has the name of a check. -/
theorem mysql_checks_partial {f : Filter} {db : List Key} {c : MyInfo}
    (hf : OneOf f.schemas f.excludeSchemas) (ht : OneOf f.tables f.excludeTables) (hs : MyShows db c)
    (hv : MyValid db) (ha : MyChecksApart db) :
    (∀ x, x ∈ myChecks f c ↔ ∃ k ∈ db, ∃ e, k.kind = .check e ∧ Asked f k ∧ x = (k.schema, k.table, k.name, e)) ∧
    (myChecks f c).Nodup := by
  have hcc : ∀ k : Key, ∀ r ∈ ccRows k, ∃ e, k.kind = .check e ∧ r = ⟨k.schema, k.name, e⟩ := by
    intro k r hr
    unfold ccRows at hr
    cases hk : k.kind <;> rw [hk] at hr <;> dsimp only at hr <;>
      first
      | (rw [List.mem_singleton] at hr; exact ⟨_, rfl, hr⟩)
      | cases hr
  have hp : (myChecks f c).Perm (db.flatMap fun k => (ccRows k).flatMap fun r =>
      if myTable f (tcRow k) = true then [(k.schema, k.table, k.name, r.clause)] else []) := by
    unfold myChecks
    refine (join_perm _ hv.nodup hs.tc hs.cc ?_).trans (.of_eq ?_)
    · intro i hi j hj hji r hr
      obtain ⟨e, he, rfl⟩ := hcc j r hr
      refine if_neg fun h => ?_
      simp only [Bool.and_eq_true, beq_iff_eq] at h
      exact hji (ha i hi j hj e he h.1.1 h.1.2).symm
    · refine flatMap_congr fun k _ => flatMap_congr fun r hr => ?_
      obtain ⟨e, he, rfl⟩ := hcc k r hr
      have : ((tcRow k).schema == k.schema && (tcRow k).name == k.name && myTable f (tcRow k)) =
          myTable f (tcRow k) := by simp [tcRow]
      dsimp only
      rw [this]
      rfl
  constructor
  · intro x
    rw [hp.mem_iff, List.mem_flatMap]
    constructor
    · rintro ⟨k, hk, hx⟩
      obtain ⟨r, hr, hx⟩ := List.mem_flatMap.mp hx
      obtain ⟨e, he, rfl⟩ := hcc k r hr
      by_cases ht' : myTable f (tcRow k) = true
      · rw [if_pos ht', List.mem_singleton] at hx
        exact ⟨k, hk, e, he, (myTable_iff hf ht k).mp ht', hx⟩
      · rw [if_neg ht'] at hx; cases hx
    · rintro ⟨k, hk, e, he, h2, rfl⟩
      refine ⟨k, hk, List.mem_flatMap.mpr ⟨⟨k.schema, k.name, e⟩, ?_, ?_⟩⟩
      · unfold ccRows; rw [he]; exact List.mem_cons_self ..
      · rw [if_pos ((myTable_iff hf ht k).mpr h2)]
        exact List.mem_cons_self ..
  · refine hp.nodup_iff.mpr ?_
    unfold List.Nodup
    rw [List.pairwise_flatMap]
    constructor
    · intro k _
      unfold ccRows
      cases k.kind <;> dsimp only <;> first | exact .nil | skip
      rw [List.flatMap_cons, List.flatMap_nil, List.append_nil]
      by_cases ht' : myTable f (tcRow k) = true
      · rw [if_pos ht']; exact List.pairwise_singleton ..
      · rw [if_neg ht']; exact .nil
    · refine List.Pairwise.imp_of_mem ?_ hv.nodup
      intro i j hi hj hij x hx y hy e
      obtain ⟨r, hr, hx⟩ := List.mem_flatMap.mp hx
      obtain ⟨s, hs', hy⟩ := List.mem_flatMap.mp hy
      obtain ⟨e1, he1, rfl⟩ := hcc i r hr
      obtain ⟨e2, he2, rfl⟩ := hcc j s hs'
      by_cases h1 : myTable f (tcRow i) = true
      · by_cases h2 : myTable f (tcRow j) = true
        · rw [if_pos h1, List.mem_singleton] at hx
          rw [if_pos h2, List.mem_singleton] at hy
          rw [hx, hy] at e
          simp only [Prod.mk.injEq] at e
          exact hij (ha i hi j hj e2 he2 e.1 e.2.2.1)
        · rw [if_neg h2] at hy; cases hy
      · rw [if_neg h1] at hx; cases hx

end Sqddl.Scripts
