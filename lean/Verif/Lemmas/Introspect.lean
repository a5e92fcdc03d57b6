import Verif.Model.Introspect
import Verif.Spec.Introspect
import Verif.Lemmas.CacheOps

/-!
# The catalog while objects are added to it
-/

namespace Sqddl.Introspect
open IntrospectSpec

section generic
variable {α β K : Type}

theorem map_set_eq {f f' : α → β} {xs : List α} {i : Nat} {x : α} (hx : xs[i]? = some x)
    (hne : ∀ j y, xs[j]? = some y → j ≠ i → f' y = f y) :
    (xs.map f).set i (f' x) = xs.map f' := by
  apply List.ext_getElem?
  intro j
  by_cases hj : i = j
  · subst hj
    obtain ⟨hlt, -⟩ := List.getElem?_eq_some_iff.1 hx
    rw [List.getElem?_set_self (by simpa using hlt), List.getElem?_map, hx]
    rfl
  · rw [List.getElem?_set_ne hj, List.getElem?_map, List.getElem?_map]
    cases hy : xs[j]? with
    | none => rfl
    | some y => simp [hne j y hy (fun e => hj e.symm)]

theorem nodup_index {xs : List α} (h : xs.Nodup) {i j : Nat} {x : α} (hi : xs[i]? = some x)
    (hj : xs[j]? = some x) : i = j := by
  obtain ⟨h1, e1⟩ := List.getElem?_eq_some_iff.1 hi
  obtain ⟨h2, e2⟩ := List.getElem?_eq_some_iff.1 hj
  exact (List.getElem?_inj h1 h).1 (hi.trans hj.symm)

theorem key_fresh {key : α → K} {done rest xs : List α} {x : α} (hn : (xs.map key).Nodup)
    (he : done ++ x :: rest = xs) : key x ∉ done.map key := by
  subst he
  rw [List.map_append, List.nodup_append] at hn
  intro hm
  exact hn.2.2 _ hm _ (by simp) rfl

theorem addOrUpdateIn_new [DecidableEq K] {ign : α → Bool} {new : α} {k : K} {xs : List α}
    {m : PosMap K} (h : m.get k = none) :
    addOrUpdateIn ign new k xs m = some (xs ++ [new], m.set k xs.length) := by
  simp [addOrUpdateIn, slot, h]

theorem slot_found {ign : α → Bool} {xs : List α} {i : Nat} {x : α} (hx : xs[i]? = some x)
    (hi : ign x = false) : slot ign xs (some i) = some (some i) := by simp [slot, hx, hi]

/-- Objects are added one after the other. -/
theorem writeList_ok {add : CatalogCache → Catalog → α → Option (Catalog × CatalogCache)}
    {xs : List α} {P : List α → Catalog → CatalogCache → Prop}
    (hstep : ∀ done x rest cat c, done ++ x :: rest = xs → P done cat c →
      ∃ cat' c', add c cat x = some (cat', c') ∧ P (done ++ [x]) cat' c')
    {cat : Catalog} {c : CatalogCache} (h : P [] cat c) :
    ∃ cat' c', writeList add c cat xs = some (cat', c') ∧ P xs cat' c' := by
  suffices H : ∀ rest done cat c, done ++ rest = xs → P done cat c →
      ∃ cat' c', writeList add c cat rest = some (cat', c') ∧ P xs cat' c' from
    H xs [] cat c rfl h
  intro rest
  induction rest with
  | nil =>
    intro done cat c he hp
    rw [List.append_nil] at he
    subst he
    exact ⟨cat, c, rfl, hp⟩
  | cons x r ih =>
    intro done cat c he hp
    obtain ⟨cat1, c1, e1, hp1⟩ := hstep done x r cat c he hp
    obtain ⟨cat2, c2, e2, hp2⟩ := ih (done ++ [x]) cat1 c1 (by simpa using he) hp1
    exact ⟨cat2, c2, by simp [writeList, e1, e2], hp2⟩

end generic

/-! ## The catalog before its columns are marked -/

/-- The table, its columns as they were reported. -/
def tableOf0 (o : Reported) (t : Table) : Table := { tableOf o t with columns := columnsOf o t }

/-- The schema, its columns as they were reported. -/
def schemaOf0 (o : Reported) (n : Str) : Schema :=
  { schemaOf o n with tables := (o.tables.filter (·.tableSchema == n)).map (tableOf0 o) }

theorem schemaOf0_new {o : Reported} {n : Str} (h : n ∉ schemaNames o) :
    schemaOf0 o n = { schemaName := n } := by
  simp only [schemaNames, List.mem_append, List.mem_map, not_or, not_exists, not_and] at h
  obtain ⟨⟨⟨⟨h1, h2⟩, h3⟩, h4⟩, h5⟩ := h
  have e1 : o.enums.filter (·.enumSchema == n) = [] := by
    rw [List.filter_eq_nil_iff]; intro x hx hh; exact h1 x hx (by simpa using hh)
  have e2 : o.domains.filter (·.domainSchema == n) = [] := by
    rw [List.filter_eq_nil_iff]; intro x hx hh; exact h2 x hx (by simpa using hh)
  have e3 : o.routines.filter (·.routineSchema == n) = [] := by
    rw [List.filter_eq_nil_iff]; intro x hx hh; exact h3 x hx (by simpa using hh)
  have e4 : o.views.filter (·.viewSchema == n) = [] := by
    rw [List.filter_eq_nil_iff]; intro x hx hh; exact h4 x hx (by simpa using hh)
  have e5 : o.tables.filter (·.tableSchema == n) = [] := by
    rw [List.filter_eq_nil_iff]; intro x hx hh; exact h5 x hx (by simpa using hh)
  have a1 : o.enums.any (·.enumSchema == n) = false := by
    rw [List.any_eq_false]; intro x hx hh; exact h1 x hx (by simpa using hh)
  have a2 : o.domains.any (·.domainSchema == n) = false := by
    rw [List.any_eq_false]; intro x hx hh; exact h2 x hx (by simpa using hh)
  have a3 : o.routines.any (·.routineSchema == n) = false := by
    rw [List.any_eq_false]; intro x hx hh; exact h3 x hx (by simpa using hh)
  have a4 : o.views.any (·.viewSchema == n) = false := by
    rw [List.any_eq_false]; intro x hx hh; exact h4 x hx (by simpa using hh)
  simp only [schemaOf0, schemaOf, e1, e2, e3, e4, e5, a1, a2, a3, a4, List.map_nil]

/-- What the cache knows of the objects, apart from the schemas. -/
structure Rest (o : Reported) (c : CatalogCache) : Prop where
  enums : ∀ k i, c.enums.get k = some i → k ∈ o.enums.map fun x => (x.enumSchema, x.enumName)
  domains : ∀ k i, c.domains.get k = some i →
    k ∈ o.domains.map fun x => (x.domainSchema, x.domainName)
  routines : ∀ k i, c.routines.get k = some i →
    k ∈ o.routines.map fun x => (x.routineSchema, x.routineName, x.identityArguments)
  views : ∀ n m i, c.views.get (n, m) = some i ↔
    ∃ x, (o.views.filter (·.viewSchema == n))[i]? = some x ∧ x.viewName = m
  tables : ∀ n m i, c.tables.get (n, m) = some i ↔
    ∃ x, (o.tables.filter (·.tableSchema == n))[i]? = some x ∧ x.tableName = m
  columns : ∀ t ∈ o.tables, ∀ m i, c.columns.get (t.tableSchema, t.tableName, m) = some i ↔
    ∃ x, (columnsOf o t)[i]? = some x ∧ x.columnName = m
  noColumns : o.columns = [] → ∀ k, c.columns.get k = none
  constraints : ∀ k i, c.constraints.get k = some i →
    k ∈ (o.constraints.filter (·.constraintName ≠ [])).map fun x =>
      (x.tableSchema, x.tableName, x.constraintName)
  indexes : ∀ k i, c.indexes.get k = some i →
    k ∈ o.indexes.map fun x => (x.tableSchema, x.tableName, x.indexName)
  triggers : ∀ k i, c.triggers.get k = some i →
    k ∈ o.triggers.map fun x => (x.tableSchema, x.tableName, x.triggerName)

/-- Nothing is ignored, and tables and views are reported without what is in them. -/
structure Bare (o : Reported) : Prop where
  tables : ∀ t ∈ o.tables, t.ignore = false ∧ t.columns = [] ∧ t.constraints = [] ∧ t.indexes = [] ∧
    t.triggers = []
  views : ∀ v ∈ o.views, v.ignore = false ∧ v.indexes = [] ∧ v.triggers = []
  columns : ∀ x ∈ o.columns, x.ignore = false

/-- The catalog and its cache hold the objects. -/
structure St (o : Reported) (ss : List Schema) (c : CatalogCache) : Prop where
  ex : ∃ ns : List Str, ns.Nodup ∧ (∀ n, n ∈ ns ↔ n ∈ schemaNames o) ∧ ss = ns.map (schemaOf0 o) ∧
    ∀ n i, c.schemas.get n = some i ↔ ns[i]? = some n
  rest : Rest o c

theorem Rest.withSchemas {o : Reported} {c : CatalogCache} (h : Rest o c) (m : PosMap Str) :
    Rest o { c with schemas := m } :=
  ⟨h.enums, h.domains, h.routines, h.views, h.tables, h.columns, h.noColumns, h.constraints,
    h.indexes, h.triggers⟩

/-- An object of a schema that is created if necessary. -/
theorem orCreateSchema_ok {o o' : Reported} {cat : Catalog} {c : CatalogCache} {n : Str}
    {f : CatalogCache → Schema → Option (Schema × CatalogCache)} (h : St o cat.schemas c)
    (hm : ∀ m, m ∈ schemaNames o' ↔ m ∈ schemaNames o ∨ m = n)
    (hne : ∀ m, m ≠ n → schemaOf0 o' m = schemaOf0 o m)
    (hf : ∀ c1, Rest o c1 → ∃ c', f c1 (schemaOf0 o n) = some (schemaOf0 o' n, c') ∧
      c'.schemas = c1.schemas ∧ Rest o' c') :
    ∃ ss c', orCreateSchema n f c cat = some ({ cat with schemas := ss }, c') ∧ St o' ss c' := by
  obtain ⟨ns, hnd, hmem, hss, hget⟩ := h.ex
  by_cases hn : n ∈ ns
  · obtain ⟨i, hi⟩ := List.mem_iff_getElem?.1 hn
    have hg := (hget n i).2 hi
    have hsi : cat.schemas[i]? = some (schemaOf0 o n) := by rw [hss, List.getElem?_map, hi]; rfl
    obtain ⟨c', e, hs', hr'⟩ := hf c h.rest
    refine ⟨cat.schemas.set i (schemaOf0 o' n), c', ?_, ⟨ns, hnd, fun m => ?_, ?_, ?_⟩, hr'⟩
    · simp [orCreateSchema, CatalogCache.getOrCreateSchema, getOrCreateIn, hg,
        slot_found hsi (ign := Schema.ignore) rfl, hsi, e]
    · rw [hm, hmem]
      constructor
      · exact .inl
      · rintro (h1 | rfl)
        · exact h1
        · exact (hmem _).1 hn
    · rw [hss]
      refine map_set_eq hi fun j y hy hj => hne y fun e => hj ?_
      subst e
      exact nodup_index hnd hy hi
    · rw [hs']; exact hget
  · have hg : c.schemas.get n = none := by
      cases hg : c.schemas.get n with
      | none => rfl
      | some i => exact absurd (List.mem_of_getElem? ((hget n i).1 hg)) hn
    have hnew := schemaOf0_new fun h1 => hn ((hmem n).2 h1)
    obtain ⟨c', e, hs', hr'⟩ := hf { c with schemas := c.schemas.set n cat.schemas.length }
      (h.rest.withSchemas _)
    refine ⟨cat.schemas ++ [schemaOf0 o' n], c', ?_, ⟨ns ++ [n], ?_, fun m => ?_, ?_, ?_⟩, hr'⟩
    · rw [hnew] at e
      simp [orCreateSchema, CatalogCache.getOrCreateSchema, getOrCreateIn, hg, slot, e]
    · rw [List.nodup_append]
      exact ⟨hnd, by simp, fun a ha b hb e2 => hn (by simp at hb; subst hb; exact e2 ▸ ha)⟩
    · rw [hm, ← hmem]; simp
    · rw [hss, List.map_append, List.map_singleton]
      congr 1
      exact List.map_congr_left fun m hm' => (hne m fun e => hn (e ▸ hm')).symm
    · intro m i
      rw [hs', PosMap.get_set]
      have hlen : cat.schemas.length = ns.length := by rw [hss]; simp
      by_cases e : m = n
      · subst e
        rw [if_pos rfl, hlen]
        constructor
        · intro e; cases e; simp
        · intro e
          by_cases hlt : i < ns.length
          · rw [List.getElem?_append_left hlt] at e
            exact absurd (List.mem_of_getElem? e) hn
          · have h2 := (List.getElem?_eq_some_iff.1 e).1
            simp at h2
            rw [show i = ns.length by omega]
      · rw [if_neg e, hget]
        constructor
        · intro e2
          rw [List.getElem?_append_left (List.getElem?_eq_some_iff.1 e2).1]
          exact e2
        · intro e2
          by_cases hlt : i < ns.length
          · rw [List.getElem?_append_left hlt] at e2
            exact e2
          · have h2 := (List.getElem?_eq_some_iff.1 e2).1
            simp at h2
            rw [show i = ns.length by omega] at e2
            simp at e2
            exact absurd e2.symm e

/-- An object in a schema that is there, or nothing. -/
theorem inSchema_ok {o o' : Reported} {cat : Catalog} {c : CatalogCache} {n : Str}
    {f : CatalogCache → Schema → Option (Schema × CatalogCache)} (h : St o cat.schemas c)
    (hm : schemaNames o' = schemaNames o)
    (hne : ∀ m, m ≠ n → schemaOf0 o' m = schemaOf0 o m)
    (hf : ∃ c', f c (schemaOf0 o n) = some (schemaOf0 o' n, c') ∧
      c'.schemas = c.schemas ∧ Rest o' c')
    (hskip : n ∉ schemaNames o → Rest o' c) :
    ∃ ss c', inSchema n f c cat = some ({ cat with schemas := ss }, c') ∧ St o' ss c' := by
  obtain ⟨ns, hnd, hmem, hss, hget⟩ := h.ex
  by_cases hn : n ∈ ns
  · obtain ⟨i, hi⟩ := List.mem_iff_getElem?.1 hn
    have hg := (hget n i).2 hi
    have hsi : cat.schemas[i]? = some (schemaOf0 o n) := by rw [hss, List.getElem?_map, hi]; rfl
    obtain ⟨c', e, hs', hr'⟩ := hf
    refine ⟨cat.schemas.set i (schemaOf0 o' n), c', ?_, ⟨ns, hnd, fun m => ?_, ?_, ?_⟩, hr'⟩
    · simp [inSchema, hg, slot_found hsi (ign := Schema.ignore) rfl, hsi, e]
    · rw [hm, hmem]
    · rw [hss]
      refine map_set_eq hi fun j y hy hj => hne y fun e => hj ?_
      subst e
      exact nodup_index hnd hy hi
    · rw [hs']; exact hget
  · have hg : c.schemas.get n = none := by
      cases hg : c.schemas.get n with
      | none => rfl
      | some i => exact absurd (List.mem_of_getElem? ((hget n i).1 hg)) hn
    refine ⟨cat.schemas, c, by simp [inSchema, hg, slot], ⟨ns, hnd, fun m => ?_, ?_, hget⟩,
      hskip fun h1 => hn ((hmem n).2 h1)⟩
    · rw [hm, hmem]
    · rw [hss]
      exact List.map_congr_left fun m hm' => (hne m fun e => hn (e ▸ hm')).symm

/-- An object in a table that is there, or nothing. -/
theorem inTable_ok {o o' : Reported} {c : CatalogCache} {n t : Str}
    {f : CatalogCache → Table → Option (Table × CatalogCache)} (hr : Rest o c) (hb : Bare o)
    (hother : schemaOf0 o' n = { schemaOf0 o n with
      tables := (o.tables.filter (·.tableSchema == n)).map (tableOf0 o') })
    (hne : ∀ x ∈ o.tables, x.tableSchema = n → x.tableName ≠ t → tableOf0 o' x = tableOf0 o x)
    (hf : ∀ x ∈ o.tables, x.tableSchema = n → x.tableName = t →
      ∃ c', f c (tableOf0 o x) = some (tableOf0 o' x, c') ∧ c'.schemas = c.schemas ∧ Rest o' c')
    (hskip : (∀ x ∈ o.tables, x.tableSchema = n → x.tableName ≠ t) → Rest o' c) :
    ∃ c', inTable t f c (schemaOf0 o n) = some (schemaOf0 o' n, c') ∧ c'.schemas = c.schemas ∧
      Rest o' c' := by
  cases hg : c.tables.get (n, t) with
  | none =>
    have hno : ∀ x ∈ o.tables, x.tableSchema = n → x.tableName ≠ t := by
      intro x hx e1 e2
      have : x ∈ o.tables.filter (·.tableSchema == n) := List.mem_filter.2 ⟨hx, by simpa using e1⟩
      obtain ⟨i, hi⟩ := List.mem_iff_getElem?.1 this
      have := (hr.tables n t i).2 ⟨x, hi, e2⟩
      rw [hg] at this
      cases this
    refine ⟨c, ?_, rfl, hskip hno⟩
    have e1 : (schemaOf0 o n).schemaName = n := rfl
    simp only [inTable, e1, hg, slot, Option.elim_none, Option.bind_some]
    rw [hother]
    congr 2
    have : (schemaOf0 o n).tables = (o.tables.filter (·.tableSchema == n)).map (tableOf0 o) := rfl
    have h2 : (o.tables.filter (·.tableSchema == n)).map (tableOf0 o') = (schemaOf0 o n).tables := by
      rw [this]
      refine List.map_congr_left fun x hx => ?_
      obtain ⟨hx1, hx2⟩ := List.mem_filter.1 hx
      have hx3 : x.tableSchema = n := by simpa using hx2
      exact hne x hx1 hx3 (hno x hx1 hx3)
    rw [h2]
  | some i =>
    obtain ⟨x, hx, hxt⟩ := (hr.tables n t i).1 hg
    obtain ⟨hx1, hx2⟩ := List.mem_filter.1 (List.mem_of_getElem? hx)
    have hx3 : x.tableSchema = n := by simpa using hx2
    obtain ⟨c', e, hs', hr'⟩ := hf x hx1 hx3 hxt
    refine ⟨c', ?_, hs', hr'⟩
    have e1 : (schemaOf0 o n).schemaName = n := rfl
    have hti : (schemaOf0 o n).tables[i]? = some (tableOf0 o x) := by
      show ((o.tables.filter (·.tableSchema == n)).map (tableOf0 o))[i]? = _
      rw [List.getElem?_map, hx]; rfl
    have hig : (tableOf0 o x).ignore = false := (hb.tables x hx1).1
    simp only [inTable, e1, hg, slot_found hti (ign := Table.ignore) hig, hti, e, Option.elim_some,
      Option.bind_some, Option.map_some]
    rw [hother]
    congr 3
    show ((o.tables.filter (·.tableSchema == n)).map (tableOf0 o)).set i _ = _
    refine map_set_eq hx fun j y hy hj => ?_
    obtain ⟨hy1, hy2⟩ := List.mem_filter.1 (List.mem_of_getElem? hy)
    refine hne y hy1 (by simpa using hy2) fun e2 => hj ?_
    have := (hr.tables n t j).2 ⟨y, hy, e2⟩
    rw [hg] at this
    exact (Option.some.inj this).symm

/-- An object in a view that is there, or nothing. -/
theorem inView_ok {o o' : Reported} {c : CatalogCache} {n t : Str}
    {f : CatalogCache → View → Option (View × CatalogCache)} (hr : Rest o c) (hb : Bare o)
    (hother : schemaOf0 o' n = { schemaOf0 o n with
      views := (o.views.filter (·.viewSchema == n)).map (viewOf o') })
    (hne : ∀ x ∈ o.views, x.viewSchema = n → x.viewName ≠ t → viewOf o' x = viewOf o x)
    (hf : ∀ x ∈ o.views, x.viewSchema = n → x.viewName = t →
      ∃ c', f c (viewOf o x) = some (viewOf o' x, c') ∧ c'.schemas = c.schemas ∧ Rest o' c')
    (hskip : (∀ x ∈ o.views, x.viewSchema = n → x.viewName ≠ t) → Rest o' c) :
    ∃ c', inView t f c (schemaOf0 o n) = some (schemaOf0 o' n, c') ∧ c'.schemas = c.schemas ∧
      Rest o' c' := by
  cases hg : c.views.get (n, t) with
  | none =>
    have hno : ∀ x ∈ o.views, x.viewSchema = n → x.viewName ≠ t := by
      intro x hx e1 e2
      have : x ∈ o.views.filter (·.viewSchema == n) := List.mem_filter.2 ⟨hx, by simpa using e1⟩
      obtain ⟨i, hi⟩ := List.mem_iff_getElem?.1 this
      have := (hr.views n t i).2 ⟨x, hi, e2⟩
      rw [hg] at this
      cases this
    refine ⟨c, ?_, rfl, hskip hno⟩
    have e1 : (schemaOf0 o n).schemaName = n := rfl
    simp only [inView, e1, hg, slot, Option.elim_none, Option.bind_some]
    rw [hother]
    congr 2
    have : (schemaOf0 o n).views = (o.views.filter (·.viewSchema == n)).map (viewOf o) := rfl
    have h2 : (o.views.filter (·.viewSchema == n)).map (viewOf o') = (schemaOf0 o n).views := by
      rw [this]
      refine List.map_congr_left fun x hx => ?_
      obtain ⟨hx1, hx2⟩ := List.mem_filter.1 hx
      have hx3 : x.viewSchema = n := by simpa using hx2
      exact hne x hx1 hx3 (hno x hx1 hx3)
    rw [h2]
  | some i =>
    obtain ⟨x, hx, hxt⟩ := (hr.views n t i).1 hg
    obtain ⟨hx1, hx2⟩ := List.mem_filter.1 (List.mem_of_getElem? hx)
    have hx3 : x.viewSchema = n := by simpa using hx2
    obtain ⟨c', e, hs', hr'⟩ := hf x hx1 hx3 hxt
    refine ⟨c', ?_, hs', hr'⟩
    have e1 : (schemaOf0 o n).schemaName = n := rfl
    have hti : (schemaOf0 o n).views[i]? = some (viewOf o x) := by
      show ((o.views.filter (·.viewSchema == n)).map (viewOf o))[i]? = _
      rw [List.getElem?_map, hx]; rfl
    have hig : (viewOf o x).ignore = false := (hb.views x hx1).1
    simp only [inView, e1, hg, slot_found hti (ign := View.ignore) hig, hti, e, Option.elim_some,
      Option.bind_some, Option.map_some]
    rw [hother]
    congr 3
    show ((o.views.filter (·.viewSchema == n)).map (viewOf o)).set i _ = _
    refine map_set_eq hx fun j y hy hj => ?_
    obtain ⟨hy1, hy2⟩ := List.mem_filter.1 (List.mem_of_getElem? hy)
    refine hne y hy1 (by simpa using hy2) fun e2 => hj ?_
    have := (hr.views n t j).2 ⟨y, hy, e2⟩
    rw [hg] at this
    exact (Option.some.inj this).symm

end Sqddl.Introspect
