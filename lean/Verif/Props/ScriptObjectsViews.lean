import Verif.Props.ScriptObjectsPostgres

/-!
# C113: domains and views of Postgres are reported as they were defined
-/

namespace Sqddl.Scripts
open OwnSpec ObjectSpec

/-- Sorting things by their numbers. -/
theorem sorted_rows {Y : Type} {ys : List Y} {num : Y → Nat} (hn : ys.Nodup)
    (hi : ∀ y ∈ ys, ∀ z ∈ ys, num y = num z → y = z) :
    (∀ y, y ∈ (sortSeq (ys.map fun y => (num y, y))).map (·.2) ↔ y ∈ ys) ∧
    ((sortSeq (ys.map fun y => (num y, y))).map (·.2)).Pairwise (fun a b => num a < num b) := by
  have hperm : ((sortSeq (ys.map fun y => (num y, y))).map (·.2)).Perm ys := by
    refine ((sortSeq_perm _).map _).trans (.of_eq ?_)
    rw [List.map_map]
    exact List.map_id _
  have hnum : ∀ p ∈ sortSeq (ys.map fun y => (num y, y)), p.1 = num p.2 ∧ p.2 ∈ ys := by
    intro p hp
    obtain ⟨y, hy, rfl⟩ := List.mem_map.mp ((sortSeq_perm _).mem_iff.mp hp)
    exact ⟨rfl, hy⟩
  refine ⟨fun y => hperm.mem_iff, ?_⟩
  have hnd := hperm.nodup_iff.mpr hn
  refine List.pairwise_map.mpr ?_
  refine ((sortSeq_sorted _).and (List.pairwise_map.mp hnd)).imp_of_mem ?_
  intro a b ha hb ⟨h1, h2⟩
  rw [(hnum a ha).1, (hnum b hb).1] at h1
  exact Nat.lt_of_le_of_ne h1 fun e => h2 (hi _ (hnum a ha).2 _ (hnum b hb).2 e)

/-! ## Domains -/

/-- the checks of a domain in their order -/
def checkRows (c : PgObjects) (t : PgTypeRow) : List PgTypeCheck :=
  (sortSeq ((c.checks.filter fun x => x.contypid == t.oid).map fun x => (x.oid, x))).map (·.2)

theorem checks_sorted {c : PgObjects} {t : PgTypeRow} (h : ∃ k ∈ c.checks, k.contypid = t.oid) :
    (sortSeq ((leftJoin c.checks fun x => x.contypid == t.oid).map fun x => ((x.map (·.oid)).getD 0, x))).map (·.2) =
      (checkRows c t).map some := by
  have hne : c.checks.filter (fun x => x.contypid == t.oid) ≠ [] := by
    obtain ⟨k, h1, h2⟩ := h
    intro e
    have : k ∈ c.checks.filter (fun x => x.contypid == t.oid) := List.mem_filter.mpr ⟨h1, by simpa using h2⟩
    rw [e] at this
    cases this
  unfold leftJoin checkRows
  rw [if_neg hne]
  have e : (((c.checks.filter fun x => x.contypid == t.oid).map some).map fun x => ((x.map (·.oid)).getD 0, x)) =
      (((c.checks.filter fun x => x.contypid == t.oid).map fun x => (x.oid, x)).map fun p => (p.1, some p.2)) := by
    rw [List.map_map, List.map_map]
    rfl
  rw [e, sortSeq_map, List.map_map, List.map_map]
  rfl

/-- the row of a domain -/
def domainOut (c : PgObjects) (n : PgNamespace) (t : PgTypeRow) : Domain :=
  { pgDomainRow c n t (c.collations.find? fun k => k.oid == t.typcollation &&
      (c.types.find? fun b => b.oid == t.typbasetype).any fun b => t.typcollation != b.typcollation) with
    checkNames := ((sortSeq ((leftJoin c.checks fun x => x.contypid == t.oid).map fun x =>
      ((x.map (·.oid)).getD 0, x))).map (·.2)).map fun x => (x.map (·.conname)).getD []
    checkExprs := ((sortSeq ((leftJoin c.checks fun x => x.contypid == t.oid).map fun x =>
      ((x.map (·.oid)).getD 0, x))).map (·.2)).map fun x => (x.map fun x => c.checkdef x.oid).getD [] }

theorem domainOut_shown {c : PgObjects} (hv : PgObjValid c) (n : PgNamespace) {t : PgTypeRow}
    (hno : ∀ d ∈ c.descriptions, d.objoid ≠ t.oid) (hk : ∃ k ∈ c.checks, k.contypid = t.oid) :
    DomainShown c n t (domainOut c n t) := by
  have hb : ∀ b ∈ c.types, b.oid = t.typbasetype → c.types.find? (fun b => b.oid == t.typbasetype) = some b := by
    intro b h1 h2
    exact find_key hv.typeIds (k := t.typbasetype) (by intro d _ h; simpa using h) h1 (by simpa using h2)
  refine
    { schema := rfl, name := rfl, type := rfl, notNull := rfl, default := rfl, collation := ?_, noCollation := ?_
      checks := ?_, comment := ?_ }
  · intro b h1 h2 k h3 h4
    unfold domainOut pgDomainRow
    rw [hb b h1 h2]
    simp only [Option.any_some]
    by_cases e : t.typcollation = b.typcollation
    · rw [if_pos e, List.find?_eq_none.mpr]
      · rfl
      · intro k' _ h
        simp [e] at h
    · rw [if_neg e, find_key hv.collationIds (k := t.typcollation) (by intro d _ h; simp at h; exact h.1) h3
        (by simp [h4, e])]
      rfl
  · intro h
    unfold domainOut pgDomainRow
    simp only
    rw [List.find?_eq_none.mpr]
    · rfl
    · intro k hk' hc
      simp only [Bool.and_eq_true, beq_iff_eq] at hc
      exact h k hk' hc.1
  · obtain ⟨s1, s2⟩ := sorted_rows (ys := c.checks.filter fun x => x.contypid == t.oid) (num := (·.oid))
      ((nodup_of_map hv.checkIds).filter _)
      (fun y hy z hz e => map_nodup_inj hv.checkIds (List.mem_filter.mp hy).1 (List.mem_filter.mp hz).1 e)
    refine ⟨checkRows c t, ?_, s2, ?_, ?_⟩
    · intro k
      unfold checkRows
      rw [s1, List.mem_filter, beq_iff_eq]
    · simp only [domainOut, checks_sorted hk, List.map_map]
      rfl
    · simp only [domainOut, checks_sorted hk, List.map_map]
      rfl
  · unfold domainOut pgDomainRow
    simp only
    rw [objDescription_none hno]
    exact commentOf_none hno _

/-- C113: the domains that are reported are those of the schemas that are asked for, each once, and
those with a check are reported as they were defined, if no domain has a comment and no list of domains
is given. -/
theorem pg_domains_partial {f : ObjFilter} {c : PgObjects} (hf : OneOf f.schemas f.excludeSchemas)
    (he : f.domains = [] ∧ f.excludeDomains = []) (hp : ∀ n ∈ c.namespaces, PlainSchema n.nspname) (hv : PgObjValid c)
    (hc : NoComment c (c.types.map (·.oid))) :
    ∃ xs, pgDomains f c = some xs ∧
      (∀ x ∈ xs, ∃ t ∈ c.types, ∃ n ∈ c.namespaces, t.typtype = 'd' ∧ n.oid = t.typnamespace ∧
        SchemaAsked f.toFilter n ∧ x.domainSchema = n.nspname ∧ x.domainName = t.typname ∧
        ((∃ k ∈ c.checks, k.contypid = t.oid) → DomainShown c n t x)) ∧
      (∀ t ∈ c.types, ∀ n ∈ c.namespaces, t.typtype = 'd' → n.oid = t.typnamespace → SchemaAsked f.toFilter n →
        ∃ x ∈ xs, x.domainSchema = n.nspname ∧ x.domainName = t.typname) ∧
      (xs.map fun x => (x.domainSchema, x.domainName)).Nodup := by
  let cond : PgTypeRow × PgNamespace → Bool := fun y =>
    y.1.typtype == 'd' && y.2.oid == y.1.typnamespace && pgShown f.toFilter y.2.nspname
  let all := pairs c.types fun _ => c.namespaces
  let out : PgTypeRow × PgNamespace → Domain := fun y => domainOut c y.2 y.1
  have hrows : pgDomains f c = some ((all.filter cond).map out) := by
    unfold pgDomains
    rw [if_neg (by simp [he.1, he.2])]
    refine congrArg some ?_
    rw [List.map_eq_flatMap, ← flatMap_if]
    simp only [all, flatMap_pairs]
    refine flatMap_congr fun t _ => flatMap_congr fun n _ => ?_
    rw [leftJoin_key hv.typeIds t.typbasetype (by intro d _ h; simpa using h)]
    simp only [List.flatMap_cons, List.flatMap_nil, List.append_nil]
    rw [leftJoin_key hv.collationIds t.typcollation (by intro d _ h; simp at h; exact h.1)]
    rfl
  have hmem : ∀ t n, (t, n) ∈ all.filter cond ↔ t ∈ c.types ∧ n ∈ c.namespaces ∧ t.typtype = 'd' ∧
      n.oid = t.typnamespace ∧ SchemaAsked f.toFilter n := by
    intro t n
    rw [List.mem_filter]
    simp only [all, mem_pairs, cond, Bool.and_eq_true, beq_iff_eq]
    constructor
    · rintro ⟨⟨h1, h2⟩, ⟨k1, k2⟩, k3⟩
      exact ⟨h1, h2, k1, k2, (schemaAsked_iff hf (hp n h2)).mp k3⟩
    · rintro ⟨h1, h2, k1, k2, k3⟩
      exact ⟨⟨h1, h2⟩, ⟨k1, k2⟩, (schemaAsked_iff hf (hp n h2)).mpr k3⟩
  refine ⟨_, hrows, ?_, ?_, ?_⟩
  · intro x hx
    obtain ⟨⟨t, n⟩, hy, rfl⟩ := List.mem_map.mp hx
    obtain ⟨h1, h2, h3, h4, h5⟩ := (hmem t n).mp hy
    exact ⟨t, h1, n, h2, h3, h4, h5, rfl, rfl, domainOut_shown hv n
      (fun d hd e => hc d hd (List.mem_map.mpr ⟨t, h1, e.symm⟩))⟩
  · intro t h1 n h2 h3 h4 h5
    exact ⟨_, List.mem_map.mpr ⟨(t, n), (hmem t n).mpr ⟨h1, h2, h3, h4, h5⟩, rfl⟩, rfl, rfl⟩
  · rw [List.map_map]
    refine map_nodup_of ((nodup_pairs (nodup_of_map hv.typeIds) fun _ => nodup_of_map hv.schemaIds : all.Nodup).filter _) ?_
    rintro ⟨t, n⟩ hy ⟨t', n'⟩ hz e
    obtain ⟨h1, h2, _, h4, _⟩ := (hmem t n).mp hy
    obtain ⟨k1, k2, _, k4, _⟩ := (hmem t' n').mp hz
    simp only [Function.comp, out, domainOut, pgDomainRow, Prod.mk.injEq] at e
    have en := map_nodup_inj hv.schemaNames h2 k2 e.1
    subst en
    have et := map_nodup_inj hv.typeNames h1 k1 (by simp only [← h4, ← k4, e.2])
    subst et
    rfl

/-! ## Views -/

theorem lower_same {y : Char} (h : y.isLower = true ∨ y.isDigit = true ∨ y = '_' ∨ y = '$') : y.toLower = y := by
  have : y.isUpper = false := by
    rcases h with h | h | rfl | rfl
    · unfold Char.isLower at h
      unfold Char.isUpper
      simp only [Bool.and_eq_true, decide_eq_true_iff, ge_iff_le] at h
      simp only [decide_eq_false_iff_not, ge_iff_le]
      intro e
      have h1 := UInt32.le_iff_toNat_le.mp h.1
      have h2 := UInt32.le_iff_toNat_le.mp e.2
      simp at h1 h2
      omega
    · unfold Char.isDigit at h
      unfold Char.isUpper
      simp only [Bool.and_eq_true, decide_eq_true_iff, ge_iff_le] at h
      simp only [decide_eq_false_iff_not, ge_iff_le]
      intro e
      have h1 := UInt32.le_iff_toNat_le.mp h.2
      have h2 := UInt32.le_iff_toNat_le.mp e.1
      simp at h1 h2
      omega
    · rfl
    · rfl
  unfold Char.isUpper at this
  unfold Char.toLower
  split
  · rename_i h1
    exact absurd h1 (decide_eq_false_iff_not.mp this)
  · rfl

theorem plain_lower {s : Str} (h : PlainName s) : s.map Char.toLower = s := by
  have := h.2
  clear h
  induction s with
  | nil => rfl
  | cons x s ih =>
    rw [List.map_cons, lower_same (this x (List.mem_cons_self ..)), ih fun y hy => this y (List.mem_cons_of_mem _ hy)]

theorem plain_bare {s : Str} (h : PlainName s) : bareName s = true := by
  obtain ⟨⟨x, r, rfl, hx⟩, hall⟩ := h
  unfold bareName
  rw [Bool.and_eq_true, List.all_eq_true]
  constructor
  · rcases hx with hx | rfl
    · simp [Char.isAlpha, hx]
    · rfl
  · intro y hy
    rcases hall y (List.mem_cons_of_mem _ hy) with h | h | rfl | rfl
    · simp [Char.isAlphanum, Char.isAlpha, h]
    · simp [Char.isAlphanum, h]
    · rfl
    · rfl

theorem toRegclass_plain {c : PgObjects} (hv : PgObjValid c) {t : PgClass} {n : PgNamespace} (ht : t ∈ c.classes)
    (hn : n ∈ c.namespaces) (h : n.oid = t.relnamespace) (h1 : PlainName n.nspname) (h2 : PlainName t.relname) :
    toRegclass c n.nspname t.relname = some t.oid := by
  unfold toRegclass
  rw [plain_bare h1, plain_bare h2, plain_lower h1, plain_lower h2, if_pos (by rfl)]
  rw [find_key hv.classNames (k := (t.relnamespace, t.relname)) ?_ ht ?_]
  · rfl
  · intro t' _ hc
    simp only [Bool.and_eq_true, beq_iff_eq, List.any_eq_true] at hc
    obtain ⟨hc1, n', hn', hc2, hc3⟩ := hc
    have := map_nodup_inj hv.schemaNames hn' hn hc3
    subst this
    rw [hc1, ← hc2, h]
  · simp only [Bool.and_eq_true, beq_iff_eq, List.any_eq_true]
    exact ⟨trivial, n, hn, h, rfl⟩

theorem pgViewCols_sorted {c : PgObjects} (hv : PgObjValid c) (t : PgClass) :
    (∀ a, a ∈ pgViewCols c t.oid ↔ ViewColumn c t a) ∧ (pgViewCols c t.oid).Pairwise (fun a b => a.attnum < b.attnum) := by
  have hmem : ∀ a, a ∈ c.cols.filter (fun a => a.attrelid == t.oid && decide (a.attnum > 0) && !a.attisdropped) ↔
      ViewColumn c t a := by
    intro a
    rw [List.mem_filter]
    simp only [Bool.and_eq_true, beq_iff_eq, decide_eq_true_iff, Bool.not_eq_true', ViewColumn, and_assoc, gt_iff_lt]
  obtain ⟨s1, s2⟩ := sorted_rows
    (ys := c.cols.filter fun (a : PgCol) => a.attrelid == t.oid && decide (a.attnum > 0) && !a.attisdropped)
    (num := fun a => a.attnum.toNat) ((nodup_of_map hv.columnIds).filter _) (by
      intro y hy z hz e
      obtain ⟨a1, a2, a3, _⟩ := (hmem y).mp hy
      obtain ⟨b1, b2, b3, _⟩ := (hmem z).mp hz
      refine map_nodup_inj hv.columnIds a1 b1 ?_
      simp only [Prod.mk.injEq]
      exact ⟨a2.trans b2.symm, by omega⟩)
  refine ⟨fun a => (s1 a).trans (hmem a), s2.imp ?_⟩
  intro a b h
  omega

/-- the view has a column -/
def HasColumn (c : PgObjects) (t : PgClass) : Prop := ∃ a, ViewColumn c t a

theorem pgViewRow_shown {c : PgObjects} (hv : PgObjValid c) (n : PgNamespace) {t : PgClass}
    (hno : ∀ d ∈ c.descriptions, d.objoid ≠ t.oid) : ViewShown c n t (pgViewRow c n t t.oid) := by
  obtain ⟨s1, s2⟩ := pgViewCols_sorted hv t
  refine
    { schema := rfl, name := rfl, materialized := by simp [pgViewRow], sql := rfl
      columns := ⟨pgViewCols c t.oid, s1, s2, rfl, rfl, ?_⟩, comment := ?_ }
  · intro s
    simp only [pgViewRow, List.mem_map, List.mem_filter, List.any_eq_true, Bool.and_eq_true, beq_iff_eq]
    constructor
    · rintro ⟨a, ⟨h1, e, h2, h3, h4⟩, h5⟩
      exact ⟨a, h1, h5, e, h2, h4, h3⟩
    · rintro ⟨a, h1, h5, e, h2, h4, h3⟩
      exact ⟨a, ⟨h1, e, h2, h3, h4⟩, h5⟩
  · simp only [pgViewRow]
    rw [objDescription_none hno]
    exact commentOf_none hno _

/-- C113: the views of Postgres that are reported are those that are asked for and have a column, each
once, with its definition and its columns in their order, if the names of views and their schemas need no
quotes and no view has a comment. -/
theorem pg_views_partial {f : ObjFilter} {c : PgObjects} (hf : OneOf f.schemas f.excludeSchemas)
    (ht : OneOf f.views f.excludeViews) (hp : ∀ n ∈ c.namespaces, PlainSchema n.nspname) (hv : PgObjValid c)
    (hc : NoComment c (c.classes.map (·.oid)))
    (hq : ∀ t ∈ c.classes, ∀ n ∈ c.namespaces, n.oid = t.relnamespace → t.relkind = 'v' ∨ t.relkind = 'm' →
      PlainName n.nspname ∧ PlainName t.relname) :
    (∀ x ∈ pgViews f c, ∃ t ∈ c.classes, ∃ n ∈ c.namespaces, (t.relkind = 'v' ∨ t.relkind = 'm') ∧
      n.oid = t.relnamespace ∧ SchemaAsked f.toFilter n ∧ Wanted f.views f.excludeViews t.relname ∧ ViewShown c n t x) ∧
    (∀ t ∈ c.classes, ∀ n ∈ c.namespaces, t.relkind = 'v' ∨ t.relkind = 'm' → n.oid = t.relnamespace →
      SchemaAsked f.toFilter n → Wanted f.views f.excludeViews t.relname → HasColumn c t →
      ∃ x ∈ pgViews f c, ViewShown c n t x) ∧
    ((pgViews f c).map fun x => (x.viewSchema, x.viewName)).Nodup := by
  let cond : PgClass × PgNamespace → Bool := fun y =>
    (y.1.relkind == 'v' || y.1.relkind == 'm') && y.2.oid == y.1.relnamespace && pgShown f.toFilter y.2.nspname &&
      passes f.views f.excludeViews y.1.relname
  let has : PgClass × PgNamespace → Bool := fun y => !(pgViewCols c y.1.oid).isEmpty
  let all := pairs c.classes fun _ => c.namespaces
  let out : PgClass × PgNamespace → View := fun y => pgViewRow c y.2 y.1 y.1.oid
  have hcond : ∀ t n, n ∈ c.namespaces → (cond (t, n) = true ↔ (t.relkind = 'v' ∨ t.relkind = 'm') ∧
      n.oid = t.relnamespace ∧ SchemaAsked f.toFilter n ∧ Wanted f.views f.excludeViews t.relname) := by
    intro t n hn
    simp only [cond, Bool.and_eq_true, Bool.or_eq_true, beq_iff_eq, passes_iff ht, schemaAsked_iff hf (hp n hn), and_assoc]
  have hrows : pgViews f c = (all.filter fun y => cond y && has y).map out := by
    unfold pgViews
    rw [List.map_eq_flatMap, ← flatMap_if]
    simp only [all, flatMap_pairs]
    refine flatMap_congr fun t h1 => flatMap_congr fun n h2 => ?_
    by_cases h : cond (t, n) = true
    · obtain ⟨k1, k2, _, _⟩ := (hcond t n h2).mp h
      obtain ⟨q1, q2⟩ := hq t h1 n h2 k2 k1
      rw [if_pos h, toRegclass_plain hv h1 h2 k2 q1 q2]
      simp only [h, Bool.true_and, has, out]
      by_cases e : pgViewCols c t.oid = []
      · rw [if_pos e, if_neg (by simp [e])]
      · rw [if_neg e, if_pos (by simp [e])]
    · rw [if_neg h, if_neg (by simp [h])]
  have hmem : ∀ t n, (t, n) ∈ all.filter (fun y => cond y && has y) ↔ t ∈ c.classes ∧ n ∈ c.namespaces ∧
      ((t.relkind = 'v' ∨ t.relkind = 'm') ∧ n.oid = t.relnamespace ∧ SchemaAsked f.toFilter n ∧
        Wanted f.views f.excludeViews t.relname) ∧ HasColumn c t := by
    intro t n
    have hhas : has (t, n) = true ↔ HasColumn c t := by
      simp only [has, Bool.not_eq_true', List.isEmpty_eq_false_iff, HasColumn]
      constructor
      · intro h
        obtain ⟨a, ha⟩ := List.exists_mem_of_ne_nil _ h
        exact ⟨a, ((pgViewCols_sorted hv t).1 a).mp ha⟩
      · rintro ⟨a, ha⟩ e
        have := ((pgViewCols_sorted hv t).1 a).mpr ha
        rw [e] at this
        cases this
    rw [List.mem_filter, Bool.and_eq_true, hhas]
    simp only [all, mem_pairs]
    constructor
    · rintro ⟨⟨h1, h2⟩, h3, h4⟩
      exact ⟨h1, h2, (hcond t n h2).mp h3, h4⟩
    · rintro ⟨h1, h2, h3, h4⟩
      exact ⟨⟨h1, h2⟩, (hcond t n h2).mpr h3, h4⟩
  have hno : ∀ t ∈ c.classes, ∀ d ∈ c.descriptions, d.objoid ≠ t.oid := fun t h1 d hd e =>
    hc d hd (List.mem_map.mpr ⟨t, h1, e.symm⟩)
  rw [hrows]
  refine ⟨?_, ?_, ?_⟩
  · intro x hx
    obtain ⟨⟨t, n⟩, hy, rfl⟩ := List.mem_map.mp hx
    obtain ⟨h1, h2, ⟨h3, h4, h5, h6⟩, _⟩ := (hmem t n).mp hy
    exact ⟨t, h1, n, h2, h3, h4, h5, h6, pgViewRow_shown hv n (hno t h1)⟩
  · intro t h1 n h2 h3 h4 h5 h6 h7
    exact ⟨_, List.mem_map.mpr ⟨(t, n), (hmem t n).mpr ⟨h1, h2, ⟨h3, h4, h5, h6⟩, h7⟩, rfl⟩,
      pgViewRow_shown hv n (hno t h1)⟩
  · rw [List.map_map]
    refine map_nodup_of ((nodup_pairs (nodup_of_map hv.classIds) fun _ => nodup_of_map hv.schemaIds : all.Nodup).filter _) ?_
    rintro ⟨t, n⟩ hy ⟨t', n'⟩ hz e
    obtain ⟨h1, h2, ⟨_, h4, _⟩, _⟩ := (hmem t n).mp hy
    obtain ⟨k1, k2, ⟨_, k4, _⟩, _⟩ := (hmem t' n').mp hz
    simp only [Function.comp, out, pgViewRow, Prod.mk.injEq] at e
    have en := map_nodup_inj hv.schemaNames h2 k2 e.1
    subst en
    have et := map_nodup_inj hv.classNames h1 k1 (by simp only [← h4, ← k4, e.2])
    subst et
    rfl

end Sqddl.Scripts
