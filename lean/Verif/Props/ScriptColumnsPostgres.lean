import Verif.Props.ScriptIndexesPostgres
import Verif.Spec.ScriptColumns

/-!
# C112: the columns of Postgres are reported as they were defined
-/

namespace Sqddl.Scripts
open OwnSpec ColumnSpec

/-! ## Groups whose numbers have gaps -/

theorem putSeq_map {A B : Type} (g : A → B) (x : Nat × A) (l : List (Nat × A)) :
    putSeq (x.1, g x.2) (l.map fun p => (p.1, g p.2)) = (putSeq x l).map fun p => (p.1, g p.2) := by
  induction l with
  | nil => rfl
  | cons y l ih =>
    rw [List.map_cons]
    unfold putSeq
    by_cases h : x.1 ≤ y.1
    · rw [if_pos h, if_pos h]; rfl
    · rw [if_neg h, if_neg h, ih]; rfl

theorem sortSeq_map {A B : Type} (g : A → B) (l : List (Nat × A)) :
    sortSeq (l.map fun p => (p.1, g p.2)) = (sortSeq l).map fun p => (p.1, g p.2) := by
  induction l with
  | nil => rfl
  | cons x l ih =>
    rw [List.map_cons]
    unfold sortSeq
    rw [ih, putSeq_map]

/-- Things that are grouped by a key: each group has the things with its key in the order of their
numbers. -/
theorem grouped_sorted {Y K C : Type} [DecidableEq K] {ys : List Y} {key : Y → K} {num : Y → Nat} {out : Y → C}
    (hn : ys.Nodup) (hi : ∀ y ∈ ys, ∀ z ∈ ys, key y = key z → num y = num z → y = z) :
    (∀ x ∈ grouped (ys.map fun y => (key y, num y, out y)), ∃ zs : List Y, zs ≠ [] ∧
      (∀ y, y ∈ zs ↔ y ∈ ys ∧ key y = x.1) ∧ zs.Pairwise (fun a b => num a < num b) ∧ x.2 = zs.map out) ∧
    (∀ y ∈ ys, ∃ x ∈ grouped (ys.map fun y => (key y, num y, out y)), x.1 = key y) ∧
    ((grouped (ys.map fun y => (key y, num y, out y))).map (·.1)).Nodup := by
  unfold grouped
  refine ⟨?_, ?_, ?_⟩
  · intro x hx
    obtain ⟨k, hk, rfl⟩ := List.mem_map.mp hx
    rw [mem_keysOf, List.map_map] at hk
    obtain ⟨y0, hy0, rfl⟩ := List.mem_map.mp hk
    let sub := ys.filter fun y => key y = key y0
    let sorted := sortSeq (sub.map fun y => (num y, y))
    have hperm : (sorted.map (·.2)).Perm sub := by
      refine ((sortSeq_perm _).map _).trans (.of_eq ?_)
      rw [List.map_map]
      exact List.map_id _
    have hmem : ∀ y, y ∈ sorted.map (·.2) ↔ y ∈ ys ∧ key y = key y0 := by
      intro y
      rw [hperm.mem_iff, List.mem_filter, decide_eq_true_iff]
    have hnum : ∀ p ∈ sorted, p.1 = num p.2 := by
      intro p hp
      obtain ⟨y, _, rfl⟩ := List.mem_map.mp ((sortSeq_perm _).mem_iff.mp hp)
      rfl
    refine ⟨sorted.map (·.2), ?_, hmem, ?_, ?_⟩
    · intro e
      have := (hmem y0).mpr ⟨hy0, rfl⟩
      rw [e] at this
      cases this
    · have hnd : (sorted.map (·.2)).Nodup := hperm.nodup_iff.mpr (hn.filter _)
      refine List.pairwise_map.mpr ?_
      refine ((sortSeq_sorted _).and (List.pairwise_map.mp hnd)).imp_of_mem ?_
      intro a b ha hb ⟨h1, h2⟩
      rw [hnum a ha, hnum b hb] at h1
      refine Nat.lt_of_le_of_ne h1 fun e => h2 ?_
      obtain ⟨a1, a2⟩ := (hmem a.2).mp (List.mem_map.mpr ⟨a, ha, rfl⟩)
      obtain ⟨b1, b2⟩ := (hmem b.2).mp (List.mem_map.mpr ⟨b, hb, rfl⟩)
      exact hi _ a1 _ b1 (a2.trans b2.symm) e
    · have e : ((ys.map fun y => (key y, num y, out y)).filter (fun r => r.1 = key y0)).map (·.2) =
          (sub.map fun y => (num y, y)).map fun p => (p.1, out p.2) := by
        rw [List.filter_map, List.map_map, List.map_map]
        rfl
      simp only [Function.comp] at e ⊢
      rw [e, sortSeq_map, List.map_map, List.map_map]
      rfl
  · intro y hy
    refine ⟨_, List.mem_map.mpr ⟨key y, ?_, rfl⟩, rfl⟩
    rw [mem_keysOf, List.map_map]
    exact List.mem_map.mpr ⟨y, hy, rfl⟩
  · rw [List.map_map]
    refine map_nodup_of (nodup_keysOf _) fun i _ j _ e => e

theorem each_map {Y A B : Type} {R : A → B → Prop} {f : Y → A} {g : Y → B} {ys : List Y}
    (h : ∀ y ∈ ys, R (f y) (g y)) : Each R (ys.map f) (ys.map g) := by
  induction ys with
  | nil => exact trivial
  | cons y ys ih =>
    exact ⟨h y (List.mem_cons_self ..), ih fun z hz => h z (List.mem_cons_of_mem _ hz)⟩

/-! ## One column -/

theorem find_key {A K : Type} {l : List A} {key : A → K} (hn : (l.map key).Nodup) {p : A → Bool} {k : K}
    (hp : ∀ a ∈ l, p a = true → key a = k) {a : A} (ha : a ∈ l) (h : p a = true) : l.find? p = some a := by
  cases hf : l.find? p with
  | none => exact absurd h (List.find?_eq_none.mp hf a ha)
  | some b =>
    have h1 := List.mem_of_find?_eq_some hf
    have h2 := List.find?_some hf
    exact congrArg some (map_nodup_inj hn h1 ha ((hp b h1 h2).trans (hp a ha h).symm))

/-- the one row of a column -/
def pgOneRow (c : PgColInfo) (n : PgNamespace) (t : PgClass) (a : PgCol) : Column :=
  pgColumnRow c n t a (c.attrdefs.find? fun d => d.adrelid == t.oid && d.adnum == a.attnum)
    (c.collations.find? fun k => k.oid == a.attcollation)
    (c.types.find? fun e => e.typtype == 'e' && e.oid == a.atttypid)
    (c.types.find? fun x => x.oid == a.atttypid && x.typtype == 'd')
    (c.types.find? fun b => (c.types.find? fun x => x.oid == a.atttypid && x.typtype == 'd').any
      (fun x => b.oid == x.typbasetype))

theorem pgColumnRows_one {c : PgColInfo} (hv : PgColValid c) (n : PgNamespace) (t : PgClass) (a : PgCol) :
    pgColumnRows c n t a = [pgOneRow c n t a] := by
  unfold pgColumnRows pgOneRow
  rw [leftJoin_key hv.defaults (t.oid, a.attnum) (by intro d _ h; simpa using h),
    leftJoin_key hv.collationIds a.attcollation (by intro d _ h; simpa using h),
    leftJoin_key hv.typeIds a.atttypid (p := fun e => e.typtype == 'e' && e.oid == a.atttypid)
      (by intro d _ h; simp at h; exact h.2),
    leftJoin_key hv.typeIds a.atttypid (p := fun x => x.oid == a.atttypid && x.typtype == 'd')
      (by intro d _ h; simp at h; exact h.1)]
  simp only [List.flatMap_cons, List.flatMap_nil, List.append_nil]
  rw [leftJoin_key hv.typeIds
    (((c.types.find? fun x => x.oid == a.atttypid && x.typtype == 'd').map (·.typbasetype)).getD 0)]
  · rfl
  · intro b _ h
    cases hf : c.types.find? (fun x => x.oid == a.atttypid && x.typtype == 'd') with
    | none => rw [hf] at h; cases h
    | some x => rw [hf] at h; simpa using h

theorem pgOneRow_shown {c : PgColInfo} (hv : PgColValid c) (hd : PlainDomains c) (n : PgNamespace) {t : PgClass}
    {a : PgCol} (hta : t.oid = a.attrelid) : PgColShown c n t a (pgOneRow c n t a) := by
  have hkept : kept c a (((c.attrdefs.find? fun d => d.adrelid == t.oid && d.adnum == a.attnum).map
      fun d => c.expr d.adbin d.adrelid).getD []) := by
    cases hf : c.attrdefs.find? (fun d => d.adrelid == t.oid && d.adnum == a.attnum) with
    | none =>
      refine .inr ⟨fun d hd h => ?_, rfl⟩
      have := List.find?_eq_none.mp hf d hd
      simp [hta, h.1, h.2] at this
    | some d =>
      have h2 := List.find?_some hf
      simp only [Bool.and_eq_true, beq_iff_eq] at h2
      exact .inl ⟨d, List.mem_of_find?_eq_some hf, h2.1.trans hta, h2.2, rfl⟩
  refine
    { schema := rfl, table := rfl, name := rfl, type := ?_, domain := ?_, enum := ?_, numeric := ?_
      numericPlain := ?_, notNumeric := ?_, identityAlways := ?_, identityDefault := ?_, identityNone := ?_
      notNull := rfl, generated := ?_, notGenerated := ?_, collation := ?_, noCollation := ?_, comment := ?_
      noComment := ?_ }
  · intro h
    have e : c.types.find? (fun x => x.oid == a.atttypid && x.typtype == 'd') = none := by
      rw [List.find?_eq_none]
      intro x hx hc
      simp only [Bool.and_eq_true, beq_iff_eq] at hc
      exact h x hx hc.1 hc.2
    have e2 : c.types.find? (fun b => (none : Option PgType).any (fun x => b.oid == x.typbasetype)) = none := by
      rw [List.find?_eq_none]
      intro x _ hc
      cases hc
    unfold pgOneRow pgColumnRow
    simp only [e, e2]
    exact ⟨trivial, rfl⟩
  · intro x hx ho hty
    have e : c.types.find? (fun x => x.oid == a.atttypid && x.typtype == 'd') = some x :=
      find_key hv.typeIds (k := a.atttypid) (by intro d _ h; simp at h; exact h.1) hx (by simp [ho, hty])
    obtain ⟨b, hb, hbo⟩ := hv.bases x hx hty
    have e2 : c.types.find? (fun b => (some x).any (fun x => b.oid == x.typbasetype)) = some b :=
      find_key hv.typeIds (k := x.typbasetype) (by intro d _ h; simpa using h) hb (by simpa using hbo)
    unfold pgOneRow pgColumnRow
    simp only [e, e2]
    rw [hbo, hd x hx hty b hb hbo]
    exact ⟨rfl, rfl⟩
  · unfold pgOneRow pgColumnRow
    simp only
    rw [List.find?_isSome]
    simp only [Bool.and_eq_true, beq_iff_eq]
    constructor
    · rintro ⟨x, h1, h2, h3⟩; exact ⟨x, h1, h3, h2⟩
    · rintro ⟨x, h1, h2, h3⟩; exact ⟨x, h1, h3, h2⟩
  · intro p s h1 h2 h3 h4 h5
    unfold pgOneRow pgColumnRow pgPrecision pgScale itoa
    simp only [if_pos h1]
    unfold numericMod at h5
    rw [if_neg (by omega), if_neg (by omega)]
    exact ⟨congrArg _ (by omega), congrArg _ (by omega)⟩
  · intro h1 h2
    unfold pgOneRow pgColumnRow pgPrecision pgScale
    simp only [if_pos h1, if_pos h2]
    exact ⟨trivial, trivial⟩
  · intro h1
    unfold pgOneRow pgColumnRow pgPrecision pgScale
    simp only [if_neg h1]
    exact ⟨trivial, trivial⟩
  · intro h; unfold pgOneRow pgColumnRow; rw [h]; rfl
  · intro h; unfold pgOneRow pgColumnRow; rw [h]; rfl
  · intro h; unfold pgOneRow pgColumnRow; rw [h]; rfl
  · intro h
    unfold pgOneRow pgColumnRow
    simp only [if_pos h]
    exact ⟨by simp [h], trivial, hkept⟩
  · intro h
    have h' : ¬ a.attgenerated = 's' := by rw [h]; decide
    unfold pgOneRow pgColumnRow
    simp only [if_neg h']
    exact ⟨by simp [h'], trivial, hkept⟩
  · intro k hk ho
    have e : c.collations.find? (fun k => k.oid == a.attcollation) = some k :=
      find_key hv.collationIds (k := a.attcollation) (by intro d _ h; simpa using h) hk (by simpa using ho)
    unfold pgOneRow pgColumnRow
    simp only [e]
  · intro h
    have e : c.collations.find? (fun k => k.oid == a.attcollation) = none := by
      rw [List.find?_eq_none]
      intro k hk hc
      exact h k hk (by simpa using hc)
    unfold pgOneRow pgColumnRow
    simp only [e]
  · intro text h
    unfold pgOneRow pgColumnRow
    simp only [h]; rfl
  · intro h
    unfold pgOneRow pgColumnRow
    simp only [h]; rfl

/-! ## All columns -/

/-- the table is asked for -/
def ClassAsked (f : Filter) (t : PgClass) (n : PgNamespace) : Prop :=
  (f.system = true ∨ ¬ PgOwn n.nspname) ∧ Wanted f.schemas f.excludeSchemas n.nspname ∧
    Wanted f.tables f.excludeTables t.relname

/-- `a` is one of the columns of a table: the columns of the system have numbers below 1 -/
def ColumnOf (c : PgColInfo) (t : PgClass) (a : PgCol) : Prop :=
  a ∈ c.cols ∧ a.attrelid = t.oid ∧ 0 < a.attnum ∧ a.attisdropped = false

/-- C112: the columns of Postgres that are reported are those of the tables that are asked for, for each
table in their order, as they were defined, if domains have no modifiers of their own. -/
theorem pg_columns_partial {f : Filter} {c : PgColInfo} (hf : OneOf f.schemas f.excludeSchemas)
    (ht : OneOf f.tables f.excludeTables) (hp : ∀ n ∈ c.namespaces, PlainSchema n.nspname) (hv : PgColValid c)
    (hd : PlainDomains c) :
    (∀ x ∈ pgColumns f c, ∃ t ∈ c.classes, ∃ n ∈ c.namespaces, ∃ cols : List PgCol, n.oid = t.relnamespace ∧
      t.relkind = 'r' ∧ ClassAsked f t n ∧ x.1 = (n.nspname, t.relname) ∧ (∀ a, a ∈ cols ↔ ColumnOf c t a) ∧
      cols.Pairwise (fun a b => a.attnum < b.attnum) ∧ Each (PgColShown c n t) cols x.2) ∧
    (∀ t ∈ c.classes, ∀ n ∈ c.namespaces, n.oid = t.relnamespace → t.relkind = 'r' → ClassAsked f t n →
      (∃ a, ColumnOf c t a) → ∃ x ∈ pgColumns f c, x.1 = (n.nspname, t.relname)) ∧
    ((pgColumns f c).map (·.1)).Nodup := by
  let cond : PgCol × PgClass × PgNamespace → Bool := fun y =>
    y.2.1.relkind == 'r' && y.2.1.oid == y.1.attrelid && y.2.2.oid == y.2.1.relnamespace && decide (y.1.attnum > 0) &&
      !y.1.attisdropped && pgShown f y.2.2.nspname && passes f.tables f.excludeTables y.2.1.relname
  let all := pairs c.cols fun _ => pairs c.classes fun _ => c.namespaces
  let key : PgCol × PgClass × PgNamespace → Str × Str := fun y => (y.2.2.nspname, y.2.1.relname)
  let num : PgCol × PgClass × PgNamespace → Nat := fun y => y.1.attnum.toNat
  let out : PgCol × PgClass × PgNamespace → Column := fun y => pgOneRow c y.2.2 y.2.1 y.1
  have hrows : pgColumns f c = grouped ((all.filter cond).map fun y => (key y, num y, out y)) := by
    unfold pgColumns
    refine congrArg grouped ?_
    rw [List.map_eq_flatMap, ← flatMap_if]
    simp only [all, flatMap_pairs]
    refine flatMap_congr fun a _ => flatMap_congr fun t _ => flatMap_congr fun n _ => ?_
    rw [pgColumnRows_one hv]
    rfl
  have hmem : ∀ a t n, (a, t, n) ∈ all.filter cond ↔ ColumnOf c t a ∧ t ∈ c.classes ∧ n ∈ c.namespaces ∧
      n.oid = t.relnamespace ∧ t.relkind = 'r' ∧ ClassAsked f t n := by
    intro a t n
    rw [List.mem_filter]
    simp only [all, mem_pairs, cond]
    constructor
    · rintro ⟨⟨h1, h2, h3⟩, h⟩
      simp only [Bool.and_eq_true, beq_iff_eq, decide_eq_true_iff, pgShown_iff hf (hp n h3), passes_iff ht,
        Bool.not_eq_true'] at h
      obtain ⟨⟨⟨⟨⟨⟨k1, k2⟩, k3⟩, k4⟩, k5⟩, k6⟩, k7⟩ := h
      exact ⟨⟨h1, k2.symm, k4, k5⟩, h2, h3, k3, k1, k6.1, k6.2, k7⟩
    · rintro ⟨⟨h1, k2, k4, k5⟩, h2, h3, k3, k1, k6, k7, k8⟩
      refine ⟨⟨h1, h2, h3⟩, ?_⟩
      simp only [Bool.and_eq_true, beq_iff_eq, decide_eq_true_iff, pgShown_iff hf (hp n h3), passes_iff ht,
        Bool.not_eq_true']
      exact ⟨⟨⟨⟨⟨⟨k1, k2.symm⟩, k3⟩, k4⟩, k5⟩, k6, k7⟩, k8⟩
  have hnd : (all.filter cond).Nodup := by
    refine (nodup_pairs (nodup_of_map hv.columnIds) fun _ => ?_ : all.Nodup).filter _
    exact nodup_pairs (nodup_of_map hv.tableIds) fun _ => nodup_of_map hv.schemaIds
  have htab : ∀ t ∈ c.classes, ∀ n ∈ c.namespaces, ∀ t' ∈ c.classes, ∀ n' ∈ c.namespaces,
      n.oid = t.relnamespace → n'.oid = t'.relnamespace → n.nspname = n'.nspname → t.relname = t'.relname →
      t = t' ∧ n = n' := by
    intro t h1 n h2 t' h3 n' h4 e1 e2 e3 e4
    have en := map_nodup_inj hv.schemaNames h2 h4 e3
    subst en
    exact ⟨map_nodup_inj hv.tableNames h1 h3 (by simp only [← e1, ← e2, e4]), rfl⟩
  have hinj : ∀ y ∈ all.filter cond, ∀ z ∈ all.filter cond, key y = key z → num y = num z → y = z := by
    rintro ⟨a, t, n⟩ hy ⟨a', t', n'⟩ hz ek en
    obtain ⟨⟨a1, a2, a3, _⟩, h2, h3, h4, _⟩ := (hmem a t n).mp hy
    obtain ⟨⟨b1, b2, b3, _⟩, k2, k3, k4, _⟩ := (hmem a' t' n').mp hz
    simp only [key, Prod.mk.injEq] at ek
    obtain ⟨rfl, rfl⟩ := htab t h2 n h3 t' k2 n' k3 h4 k4 ek.1 ek.2
    simp only [num] at en
    have : a = a' := map_nodup_inj hv.columnIds a1 b1 (by
      simp only [Prod.mk.injEq]
      exact ⟨a2.trans b2.symm, by omega⟩)
    rw [this]
  obtain ⟨g1, g2, g3⟩ := grouped_sorted (key := key) (num := num) (out := out) hnd hinj
  rw [hrows]
  refine ⟨?_, ?_, g3⟩
  · intro x hx
    obtain ⟨zs, hne, hz, hsort, hout⟩ := g1 x hx
    obtain ⟨⟨a0, t, n⟩, hz0⟩ := List.exists_mem_of_ne_nil zs hne
    obtain ⟨hy0, hk0⟩ := (hz _).mp hz0
    obtain ⟨_, h2, h3, h4, h5, h6⟩ := (hmem a0 t n).mp hy0
    have hsame : ∀ y ∈ zs, y.2 = (t, n) := by
      rintro ⟨a, t', n'⟩ hy
      obtain ⟨hy1, hk⟩ := (hz _).mp hy
      obtain ⟨_, k2, k3, k4, _⟩ := (hmem a t' n').mp hy1
      have ek := hk.trans hk0.symm
      simp only [key, Prod.mk.injEq] at ek
      obtain ⟨rfl, rfl⟩ := htab t' k2 n' k3 t h2 n h3 k4 h4 ek.1 ek.2
      rfl
    refine ⟨t, h2, n, h3, zs.map (·.1), h4, h5, h6, hk0.symm, ?_, ?_, ?_⟩
    · intro a
      rw [List.mem_map]
      constructor
      · rintro ⟨y, hy, rfl⟩
        have e := hsame y hy
        obtain ⟨a, t', n'⟩ := y
        cases e
        exact ((hmem a t n).mp ((hz _).mp hy).1).1
      · intro ha
        exact ⟨(a, t, n), (hz _).mpr ⟨(hmem a t n).mpr ⟨ha, h2, h3, h4, h5, h6⟩, hk0⟩, rfl⟩
    · refine List.pairwise_map.mpr (hsort.imp ?_)
      intro a b h
      simp only [num] at h
      omega
    · rw [hout]
      refine each_map fun y hy => ?_
      have e := hsame y hy
      obtain ⟨a, t', n'⟩ := y
      cases e
      exact pgOneRow_shown hv hd n ((hmem a t n).mp ((hz _).mp hy).1).1.2.1.symm
  · rintro t h1 n h2 h3 h4 h5 ⟨a, ha⟩
    exact g2 (a, t, n) ((hmem a t n).mpr ⟨ha, h1, h2, h3, h4, h5⟩)

end Sqddl.Scripts
