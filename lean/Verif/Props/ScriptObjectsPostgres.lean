import Verif.Props.ScriptColumnsPostgres
import Verif.Spec.ScriptObjects

/-!
# C113: enums, domains, views and triggers of Postgres are reported as they were defined
-/

namespace Sqddl.Scripts
open OwnSpec ObjectSpec

theorem objDescription_none {c : PgObjects} {oid : Nat} (h : ∀ d ∈ c.descriptions, d.objoid ≠ oid) (catalog : Str) :
    objDescription c oid catalog = [] := by
  unfold objDescription
  rw [List.find?_eq_none.mpr]
  · rfl
  · intro d hd hc
    simp only [Bool.and_eq_true, beq_iff_eq] at hc
    exact h d hd hc.1.1

theorem commentOf_none {c : PgObjects} {oid : Nat} (h : ∀ d ∈ c.descriptions, d.objoid ≠ oid) (catalog : Str) :
    CommentOf c catalog oid [] :=
  .inr ⟨fun d hd e => absurd e (h d hd), rfl⟩

theorem schemaAsked_iff {f : Filter} (hf : OneOf f.schemas f.excludeSchemas) {n : PgNamespace}
    (hn : PlainSchema n.nspname) : pgShown f n.nspname = true ↔ SchemaAsked f n := pgShown_iff hf hn

/-! ## Enums -/

/-- C113: the enums that are reported are those of the schemas that are asked for, each once, with all
its labels in their order, if no enum has a comment and no list of enums is given. -/
theorem pg_enums_partial {f : ObjFilter} {c : PgObjects} (hf : OneOf f.schemas f.excludeSchemas)
    (he : f.enums = [] ∧ f.excludeEnums = []) (hp : ∀ n ∈ c.namespaces, PlainSchema n.nspname) (hv : PgObjValid c)
    (hc : NoComment c (c.enums.map (·.enumtypid))) :
    ∃ xs, pgEnums f c = some xs ∧
      (∀ x ∈ xs, ∃ t ∈ c.types, ∃ n ∈ c.namespaces, n.oid = t.typnamespace ∧ SchemaAsked f.toFilter n ∧
        EnumShown c n t x) ∧
      (∀ t ∈ c.types, ∀ n ∈ c.namespaces, n.oid = t.typnamespace → SchemaAsked f.toFilter n →
        (∃ e ∈ c.enums, e.enumtypid = t.oid) → ∃ x ∈ xs, EnumShown c n t x) ∧
      (xs.map fun x => (x.enumSchema, x.enumName)).Nodup := by
  let cond : PgEnumRow × PgTypeRow × PgNamespace → Bool := fun y =>
    y.2.1.oid == y.1.enumtypid && y.2.2.oid == y.2.1.typnamespace && pgShown f.toFilter y.2.2.nspname
  let all := pairs c.enums fun _ => pairs c.types fun _ => c.namespaces
  let key : PgEnumRow × PgTypeRow × PgNamespace → Str × Str × Nat := fun y => (y.2.2.nspname, y.2.1.typname, y.2.1.oid)
  let num : PgEnumRow × PgTypeRow × PgNamespace → Nat := fun y => y.1.order
  let out : PgEnumRow × PgTypeRow × PgNamespace → Str := fun y => y.1.label
  let make : (Str × Str × Nat) × List Str → Enum := fun g =>
    { enumSchema := g.1.1, enumName := g.1.2.1, enumLabels := g.2, comment := objDescription c g.1.2.2 c.database }
  let groups := grouped ((all.filter cond).map fun y => (key y, num y, out y))
  have hrows : pgEnums f c = some (groups.map make) := by
    unfold pgEnums
    rw [if_neg (by simp [he.1, he.2])]
    refine congrArg (fun l => some ((grouped l).map make)) ?_
    rw [List.map_eq_flatMap, ← flatMap_if]
    simp only [all, flatMap_pairs]
    rfl
  have hmem : ∀ e t n, (e, t, n) ∈ all.filter cond ↔ (e ∈ c.enums ∧ e.enumtypid = t.oid) ∧ t ∈ c.types ∧
      n ∈ c.namespaces ∧ n.oid = t.typnamespace ∧ SchemaAsked f.toFilter n := by
    intro e t n
    rw [List.mem_filter]
    simp only [all, mem_pairs, cond, Bool.and_eq_true, beq_iff_eq]
    constructor
    · rintro ⟨⟨h1, h2, h3⟩, ⟨k1, k2⟩, k3⟩
      exact ⟨⟨h1, k1.symm⟩, h2, h3, k2, (schemaAsked_iff hf (hp n h3)).mp k3⟩
    · rintro ⟨⟨h1, k1⟩, h2, h3, k2, k3⟩
      exact ⟨⟨h1, h2, h3⟩, ⟨k1.symm, k2⟩, (schemaAsked_iff hf (hp n h3)).mpr k3⟩
  have hnd : (all.filter cond).Nodup := by
    refine (nodup_pairs (nodup_of_map hv.enumOrder) fun _ => ?_ : all.Nodup).filter _
    exact nodup_pairs (nodup_of_map hv.typeIds) fun _ => nodup_of_map hv.schemaIds
  have htype : ∀ t ∈ c.types, ∀ n ∈ c.namespaces, ∀ t' ∈ c.types, ∀ n' ∈ c.namespaces, t.oid = t'.oid →
      n.nspname = n'.nspname → (t, n) = (t', n') := by
    intro t h1 n h2 t' h3 n' h4 e1 e2
    rw [map_nodup_inj hv.typeIds h1 h3 e1, map_nodup_inj hv.schemaNames h2 h4 e2]
  have hinj : ∀ y ∈ all.filter cond, ∀ z ∈ all.filter cond, key y = key z → num y = num z → y = z := by
    rintro ⟨e, t, n⟩ hy ⟨e', t', n'⟩ hz ek en
    obtain ⟨⟨a1, a2⟩, h2, h3, _⟩ := (hmem e t n).mp hy
    obtain ⟨⟨b1, b2⟩, k2, k3, _⟩ := (hmem e' t' n').mp hz
    simp only [key, Prod.mk.injEq] at ek
    have et := htype t h2 n h3 t' k2 n' k3 ek.2.2 ek.1
    have : e = e' := map_nodup_inj hv.enumOrder a1 b1 (by
      simp only [Prod.mk.injEq]
      exact ⟨(a2.trans ek.2.2).trans b2.symm, en⟩)
    rw [this, et]
  obtain ⟨g1, g2, g3⟩ := grouped_sorted (key := key) (num := num) (out := out) hnd hinj
  have hshow : ∀ g ∈ groups, ∃ t ∈ c.types, ∃ n ∈ c.namespaces, n.oid = t.typnamespace ∧ SchemaAsked f.toFilter n ∧
      g.1 = (n.nspname, t.typname, t.oid) ∧ EnumShown c n t (make g) := by
    intro g hg
    obtain ⟨zs, hne, hz, hsort, hout⟩ := g1 g hg
    obtain ⟨⟨e0, t, n⟩, hz0⟩ := List.exists_mem_of_ne_nil zs hne
    obtain ⟨hy0, hk0⟩ := (hz _).mp hz0
    obtain ⟨h1, h2, h3, h4, h5⟩ := (hmem e0 t n).mp hy0
    have hsame : ∀ y ∈ zs, y.2 = (t, n) := by
      rintro ⟨e, t', n'⟩ hy
      obtain ⟨hy1, hk⟩ := (hz _).mp hy
      obtain ⟨_, k2, k3, _⟩ := (hmem e t' n').mp hy1
      have ek := hk.trans hk0.symm
      simp only [key, Prod.mk.injEq] at ek
      exact htype t' k2 n' k3 t h2 n h3 ek.2.2 ek.1
    have hno : ∀ d ∈ c.descriptions, d.objoid ≠ t.oid := fun d hd e =>
      hc d hd (List.mem_map.mpr ⟨e0, h1.1, h1.2.trans e.symm⟩)
    have hk0' : g.1 = (n.nspname, t.typname, t.oid) := hk0.symm
    refine ⟨t, h2, n, h3, h4, h5, hk0', ?_⟩
    refine { schema := by simp only [make, hk0'], name := by simp only [make, hk0'], labels := ?_, comment := ?_ }
    · refine ⟨zs.map (·.1), ?_, List.pairwise_map.mpr hsort, ?_⟩
      · intro e
        rw [List.mem_map]
        constructor
        · rintro ⟨y, hy, rfl⟩
          have es := hsame y hy
          obtain ⟨e, t', n'⟩ := y
          cases es
          exact ((hmem e t n).mp ((hz _).mp hy).1).1
        · intro h
          exact ⟨(e, t, n), (hz _).mpr ⟨(hmem e t n).mpr ⟨h, h2, h3, h4, h5⟩, hk0⟩, rfl⟩
      · simp only [make, hout, List.map_map]
        rfl
    · simp only [make, hk0']
      rw [objDescription_none hno]
      exact commentOf_none hno _
  refine ⟨_, hrows, ?_, ?_, ?_⟩
  · intro x hx
    obtain ⟨g, hg, rfl⟩ := List.mem_map.mp hx
    obtain ⟨t, h1, n, h2, h3, h4, _, h5⟩ := hshow g hg
    exact ⟨t, h1, n, h2, h3, h4, h5⟩
  · rintro t h1 n h2 h3 h4 ⟨e, he1, he2⟩
    obtain ⟨g, hg, hk⟩ := g2 (e, t, n) ((hmem e t n).mpr ⟨⟨he1, he2⟩, h1, h2, h3, h4⟩)
    refine ⟨make g, List.mem_map.mpr ⟨g, hg, rfl⟩, ?_⟩
    obtain ⟨t', k1, n', k2, _, _, k5, k6⟩ := hshow g hg
    have ek := k5.symm.trans hk
    simp only [key, Prod.mk.injEq] at ek
    cases htype t' k1 n' k2 t h1 n h2 ek.2.2 ek.1
    exact k6
  · rw [List.map_map]
    refine map_nodup_of (nodup_of_map g3) ?_
    intro a ha b hb e
    obtain ⟨t, h1, n, h2, h3, _, h5, _⟩ := hshow a ha
    obtain ⟨t', k1, n', k2, k3, _, k5, _⟩ := hshow b hb
    simp only [Function.comp, make, h5, k5, Prod.mk.injEq] at e
    have en := map_nodup_inj hv.schemaNames h2 k2 e.1
    subst en
    have et := map_nodup_inj hv.typeNames h1 k1 (by simp only [← h3, ← k3, e.2])
    subst et
    exact map_nodup_inj g3 ha hb (h5.trans k5.symm)

/-! ## Triggers -/

/-- C113: the triggers of Postgres that are reported are those of the tables (and views) that are asked
for, each once, with its definition and comment, if no other object has the number of a trigger. -/
theorem pg_triggers_partial {f : ObjFilter} {c : PgObjects} (hf : OneOf f.schemas f.excludeSchemas)
    (ht : OneOf f.tables f.excludeTables) (hp : ∀ n ∈ c.namespaces, PlainSchema n.nspname) (hv : PgObjValid c)
    (hc : ∀ d ∈ c.descriptions, ∀ g ∈ c.triggers, d.objoid = g.oid →
      some d.classoid = c.catalogs b!"pg_trigger" ∧ d.objsubid = 0) :
    (∀ x ∈ pgTriggers f c, ∃ g ∈ c.triggers, ∃ t ∈ c.classes, ∃ n ∈ c.namespaces, t.oid = g.tgrelid ∧
      n.oid = t.relnamespace ∧ g.tgisinternal = false ∧ SchemaAsked f.toFilter n ∧
      Wanted f.tables f.excludeTables t.relname ∧ TriggerShown c n t g x) ∧
    (∀ g ∈ c.triggers, ∀ t ∈ c.classes, ∀ n ∈ c.namespaces, t.oid = g.tgrelid → n.oid = t.relnamespace →
      g.tgisinternal = false → SchemaAsked f.toFilter n → Wanted f.tables f.excludeTables t.relname →
      ∃ x ∈ pgTriggers f c, TriggerShown c n t g x) ∧
    ((pgTriggers f c).map fun x => (x.tableSchema, x.tableName, x.triggerName)).Nodup := by
  let cond : PgTriggerRow × PgClass × PgNamespace → Bool := fun y =>
    y.2.1.oid == y.1.tgrelid && y.2.2.oid == y.2.1.relnamespace && !y.1.tgisinternal &&
      pgShown f.toFilter y.2.2.nspname && passes f.tables f.excludeTables y.2.1.relname
  let all := pairs c.triggers fun _ => pairs c.classes fun _ => c.namespaces
  let out : PgTriggerRow × PgClass × PgNamespace → Trigger := fun y =>
    { tableSchema := y.2.2.nspname, tableName := y.2.1.relname, triggerName := y.1.tgname
      isViewTrigger := y.2.1.relkind == 'v', sql := c.triggerdef y.1.oid ++ b!";"
      comment := ((c.descriptions.find? fun d => d.objoid == y.1.oid).map (·.description)).getD [] }
  have hrows : pgTriggers f c = (all.filter cond).map out := by
    unfold pgTriggers
    rw [List.map_eq_flatMap, ← flatMap_if]
    simp only [all, flatMap_pairs]
    refine flatMap_congr fun g hg => flatMap_congr fun t _ => flatMap_congr fun n _ => ?_
    have hle : (c.descriptions.filter fun d => d.objoid == g.oid).length ≤ 1 := by
      refine filter_le_one hv.descriptions (k := (g.oid, (c.catalogs b!"pg_trigger").getD 0, 0)) ?_
      intro d hd h
      have h' : d.objoid = g.oid := by simpa using h
      obtain ⟨h1, h2⟩ := hc d hd g hg h'
      rw [← h1, h2, h']; rfl
    rw [leftJoin_find hle]
    rfl
  have hmem : ∀ g t n, (g, t, n) ∈ all.filter cond ↔ g ∈ c.triggers ∧ t ∈ c.classes ∧ n ∈ c.namespaces ∧
      t.oid = g.tgrelid ∧ n.oid = t.relnamespace ∧ g.tgisinternal = false ∧ SchemaAsked f.toFilter n ∧
      Wanted f.tables f.excludeTables t.relname := by
    intro g t n
    rw [List.mem_filter]
    simp only [all, mem_pairs, cond, Bool.and_eq_true, beq_iff_eq, Bool.not_eq_true', passes_iff ht]
    constructor
    · rintro ⟨⟨h1, h2, h3⟩, ⟨⟨⟨k1, k2⟩, k3⟩, k4⟩, k5⟩
      exact ⟨h1, h2, h3, k1, k2, k3, (schemaAsked_iff hf (hp n h3)).mp k4, k5⟩
    · rintro ⟨h1, h2, h3, k1, k2, k3, k4, k5⟩
      exact ⟨⟨h1, h2, h3⟩, ⟨⟨⟨k1, k2⟩, k3⟩, (schemaAsked_iff hf (hp n h3)).mpr k4⟩, k5⟩
  have hshow : ∀ g ∈ c.triggers, ∀ t n, TriggerShown c n t g (out (g, t, n)) := by
    intro g hg t n
    refine { schema := rfl, table := rfl, name := rfl, view := by simp [out], sql := rfl, comment := ?_ }
    simp only [out]
    cases hd : c.descriptions.find? (fun d => d.objoid == g.oid) with
    | none =>
      refine .inr ⟨fun d hdm e => ?_, rfl⟩
      have := List.find?_eq_none.mp hd d hdm
      simp [e] at this
    | some d =>
      have h1 := List.mem_of_find?_eq_some hd
      have h2 : d.objoid = g.oid := by simpa using List.find?_some hd
      obtain ⟨k1, k2⟩ := hc d h1 g hg h2
      exact .inl ⟨d, h1, h2, k1, k2, rfl⟩
  rw [hrows]
  refine ⟨?_, ?_, ?_⟩
  · intro x hx
    obtain ⟨⟨g, t, n⟩, hy, rfl⟩ := List.mem_map.mp hx
    obtain ⟨h1, h2, h3, h4, h5, h6, h7, h8⟩ := (hmem g t n).mp hy
    exact ⟨g, h1, t, h2, n, h3, h4, h5, h6, h7, h8, hshow g h1 t n⟩
  · intro g h1 t h2 n h3 h4 h5 h6 h7 h8
    exact ⟨_, List.mem_map.mpr ⟨(g, t, n), (hmem g t n).mpr ⟨h1, h2, h3, h4, h5, h6, h7, h8⟩, rfl⟩, hshow g h1 t n⟩
  · rw [List.map_map]
    have hnd : (all.filter cond).Nodup := by
      refine (nodup_pairs (nodup_of_map hv.triggerIds) fun _ => ?_ : all.Nodup).filter _
      exact nodup_pairs (nodup_of_map hv.classIds) fun _ => nodup_of_map hv.schemaIds
    refine map_nodup_of hnd ?_
    rintro ⟨g, t, n⟩ hy ⟨g', t', n'⟩ hz e
    obtain ⟨h1, h2, h3, h4, h5, _⟩ := (hmem g t n).mp hy
    obtain ⟨k1, k2, k3, k4, k5, _⟩ := (hmem g' t' n').mp hz
    simp only [Function.comp, out, Prod.mk.injEq] at e
    have en := map_nodup_inj hv.schemaNames h3 k3 e.1
    subst en
    have et := map_nodup_inj hv.classNames h2 k2 (by simp only [← h5, ← k5, e.2.1])
    subst et
    have eg := map_nodup_inj hv.triggerNames h1 k1 (by simp only [← h4, ← k4, e.2.2])
    subst eg
    rfl

end Sqddl.Scripts
