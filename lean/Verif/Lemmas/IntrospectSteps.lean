import Verif.Lemmas.Introspect

/-!
# Adding one object to the catalog
-/

namespace Sqddl.Introspect
open IntrospectSpec

section generic
variable {α K : Type}

theorem filter_snoc_ne {f : α → Str} {xs : List α} {x : α} {m : Str} (h : m ≠ f x) :
    (xs ++ [x]).filter (fun y => f y == m) = xs.filter fun y => f y == m := by
  have h' : ¬ f x = m := fun e => h e.symm
  simp [List.filter_append, List.filter_cons, h']

theorem any_snoc_ne {f : α → Str} {xs : List α} {x : α} {m : Str} (h : m ≠ f x) :
    (xs ++ [x]).any (fun y => f y == m) = xs.any fun y => f y == m := by
  have h' : ¬ f x = m := fun e => h e.symm
  simp [h']

theorem filter_snoc_eq {f : α → Str} {xs : List α} {x : α} :
    (xs ++ [x]).filter (fun y => f y == f x) = xs.filter (fun y => f y == f x) ++ [x] := by
  simp [List.filter_append, List.filter_cons]

theorem any_snoc_eq {f : α → Str} {xs : List α} {x : α} :
    (xs ++ [x]).any (fun y => f y == f x) = true := by simp

theorem get_none_of_fresh [DecidableEq K] {m : PosMap K} {k : K} {ks : List K}
    (h : ∀ k i, m.get k = some i → k ∈ ks) (hk : k ∉ ks) : m.get k = none := by
  cases hg : m.get k with
  | none => rfl
  | some i => exact absurd (h k i hg) hk

theorem fresh_set [DecidableEq K] {key : α → K} {m : PosMap K} {xs : List α} {x : α} {k' : K}
    (h : ∀ k i, m.get k = some i → k ∈ xs.map key) (hk : k' = key x) (j : Nat) :
    ∀ k i, (m.set k' j).get k = some i → k ∈ (xs ++ [x]).map key := by
  intro k i hg
  rw [PosMap.get_set] at hg
  subst hk
  by_cases e : k = key x
  · subst e; simp
  · rw [if_neg e] at hg
    rw [List.map_append]
    exact List.mem_append_left _ (h k i hg)

end generic

variable {o : Reported} {cat : Catalog} {c : CatalogCache}

theorem addEnum_ok {x : Enum} (h : St o cat.schemas c)
    (hx : (x.enumSchema, x.enumName) ∉ o.enums.map fun x => (x.enumSchema, x.enumName)) :
    ∃ ss c', addEnum c cat x = some ({ cat with schemas := ss }, c') ∧
      St { o with enums := o.enums ++ [x] } ss c' := by
  refine orCreateSchema_ok h (fun m => ?_) (fun m hm => ?_) fun c1 hr => ?_
  · simp only [schemaNames, List.map_append, List.mem_append, List.map_singleton,
      List.mem_singleton]
    grind
  · simp only [schemaOf0, schemaOf, filter_snoc_ne (f := Enum.enumSchema) hm,
      any_snoc_ne (f := Enum.enumSchema) hm]
    rfl
  · have hg := get_none_of_fresh hr.enums hx
    refine ⟨{ c1 with enums := (c1.enums.set (x.enumSchema, x.enumName)
      (o.enums.filter (·.enumSchema == x.enumSchema)).length) }, ?_, rfl, ?_⟩
    · simp only [CatalogCache.addOrUpdateEnum]
      rw [show (schemaOf0 o x.enumSchema).schemaName = x.enumSchema from rfl,
        addOrUpdateIn_new (by exact hg)]
      simp only [Option.map_some, schemaOf0, schemaOf, filter_snoc_eq (f := Enum.enumSchema),
        any_snoc_eq (f := Enum.enumSchema)]
      rfl
    · exact { hr with enums := fresh_set hr.enums rfl _ }

theorem addDomain_ok {x : Domain} (h : St o cat.schemas c)
    (hx : (x.domainSchema, x.domainName) ∉
      o.domains.map fun x => (x.domainSchema, x.domainName)) :
    ∃ ss c', addDomain c cat x = some ({ cat with schemas := ss }, c') ∧
      St { o with domains := o.domains ++ [x] } ss c' := by
  refine orCreateSchema_ok h (fun m => ?_) (fun m hm => ?_) fun c1 hr => ?_
  · simp only [schemaNames, List.map_append, List.mem_append, List.map_singleton,
      List.mem_singleton]
    grind
  · simp only [schemaOf0, schemaOf, filter_snoc_ne (f := Domain.domainSchema) hm,
      any_snoc_ne (f := Domain.domainSchema) hm]
    rfl
  · have hg := get_none_of_fresh hr.domains hx
    refine ⟨{ c1 with domains := (c1.domains.set (x.domainSchema, x.domainName)
      (o.domains.filter (·.domainSchema == x.domainSchema)).length) }, ?_, rfl, ?_⟩
    · simp only [CatalogCache.addOrUpdateDomain]
      rw [show (schemaOf0 o x.domainSchema).schemaName = x.domainSchema from rfl,
        addOrUpdateIn_new (by exact hg)]
      simp only [Option.map_some, schemaOf0, schemaOf, filter_snoc_eq (f := Domain.domainSchema),
        any_snoc_eq (f := Domain.domainSchema)]
      rfl
    · exact { hr with domains := fresh_set hr.domains rfl _ }

theorem addRoutine_ok {x : Routine} (h : St o cat.schemas c)
    (hx : (x.routineSchema, x.routineName, x.identityArguments) ∉
      o.routines.map fun x => (x.routineSchema, x.routineName, x.identityArguments)) :
    ∃ ss c', addRoutine c cat x = some ({ cat with schemas := ss }, c') ∧
      St { o with routines := o.routines ++ [x] } ss c' := by
  refine orCreateSchema_ok h (fun m => ?_) (fun m hm => ?_) fun c1 hr => ?_
  · simp only [schemaNames, List.map_append, List.mem_append, List.map_singleton,
      List.mem_singleton]
    grind
  · simp only [schemaOf0, schemaOf, filter_snoc_ne (f := Routine.routineSchema) hm,
      any_snoc_ne (f := Routine.routineSchema) hm]
    rfl
  · have hg := get_none_of_fresh hr.routines hx
    refine ⟨{ c1 with routines := (c1.routines.set
      (x.routineSchema, x.routineName, x.identityArguments)
      (o.routines.filter (·.routineSchema == x.routineSchema)).length) }, ?_, rfl, ?_⟩
    · simp only [CatalogCache.addOrUpdateRoutine]
      rw [show (schemaOf0 o x.routineSchema).schemaName = x.routineSchema from rfl,
        addOrUpdateIn_new (by exact hg)]
      simp only [Option.map_some, schemaOf0, schemaOf,
        filter_snoc_eq (f := Routine.routineSchema), any_snoc_eq (f := Routine.routineSchema)]
      rfl
    · exact { hr with routines := fresh_set hr.routines rfl _ }

/-- The positions of a list that grows. -/
theorem positions_snoc {α : Type} {sch nam : α → Str} {m : PosMap (Str × Str)} {xs : List α} {x : α}
    (h : ∀ n t i, m.get (n, t) = some i ↔
      ∃ y, (xs.filter (fun y => sch y == n))[i]? = some y ∧ nam y = t)
    (hg : m.get (sch x, nam x) = none) :
    ∀ n t i, (m.set (sch x, nam x) (xs.filter (fun y => sch y == sch x)).length).get (n, t) = some i ↔
      ∃ y, ((xs ++ [x]).filter (fun y => sch y == n))[i]? = some y ∧ nam y = t := by
  intro n t i
  rw [PosMap.get_set]
  by_cases hn : n = sch x
  · subst hn
    rw [filter_snoc_eq]
    generalize hL : xs.filter (fun y => sch y == sch x) = L at *
    by_cases ht : t = nam x
    · subst ht
      rw [if_pos rfl]
      constructor
      · intro e
        cases e
        exact ⟨x, by simp, rfl⟩
      · rintro ⟨y, hy, hny⟩
        by_cases hlt : i < L.length
        · rw [List.getElem?_append_left hlt, ← hL] at hy
          have := (h (sch x) (nam x) i).2 ⟨y, hy, hny⟩
          rw [hg] at this
          cases this
        · have h2 := (List.getElem?_eq_some_iff.1 hy).1
          simp at h2
          rw [show i = L.length by omega]
    · rw [if_neg (fun e => ht (by cases e; rfl)), h, hL]
      constructor
      · rintro ⟨y, hy, hny⟩
        exact ⟨y, by rw [List.getElem?_append_left (List.getElem?_eq_some_iff.1 hy).1]; exact hy, hny⟩
      · rintro ⟨y, hy, hny⟩
        by_cases hlt : i < L.length
        · rw [List.getElem?_append_left hlt] at hy
          exact ⟨y, hy, hny⟩
        · have h2 := (List.getElem?_eq_some_iff.1 hy).1
          simp at h2
          rw [show i = L.length by omega] at hy
          simp at hy
          subst hy
          exact absurd hny.symm ht
  · rw [if_neg (fun e => hn (by cases e; rfl)), filter_snoc_ne hn]
    exact h n t i

theorem get_none_of_positions {α : Type} {sch nam : α → Str} {m : PosMap (Str × Str)} {xs : List α}
    {x : α}
    (h : ∀ n t i, m.get (n, t) = some i ↔
      ∃ y, (xs.filter (fun y => sch y == n))[i]? = some y ∧ nam y = t)
    (hx : (sch x, nam x) ∉ xs.map fun y => (sch y, nam y)) : m.get (sch x, nam x) = none := by
  cases hg : m.get (sch x, nam x) with
  | none => rfl
  | some i =>
    obtain ⟨y, hy, hny⟩ := (h _ _ i).1 hg
    obtain ⟨h1, h2⟩ := List.mem_filter.1 (List.mem_of_getElem? hy)
    have h3 : sch y = sch x := by simpa using h2
    exact absurd (List.mem_map.2 ⟨y, h1, by rw [h3, hny]⟩) hx

theorem addView_ok {x : View} (h : St o cat.schemas c)
    (hx : (x.viewSchema, x.viewName) ∉ o.views.map fun x => (x.viewSchema, x.viewName))
    (hb : x.indexes = [] ∧ x.triggers = []) (hi : o.indexes = []) (ht : o.triggers = []) :
    ∃ ss c', addView c cat x = some ({ cat with schemas := ss }, c') ∧
      St { o with views := o.views ++ [x] } ss c' := by
  refine orCreateSchema_ok h (fun m => ?_) (fun m hm => ?_) fun c1 hr => ?_
  · simp only [schemaNames, List.map_append, List.mem_append, List.map_singleton,
      List.mem_singleton]
    grind
  · simp only [schemaOf0, schemaOf, filter_snoc_ne (f := View.viewSchema) hm,
      any_snoc_ne (f := View.viewSchema) hm]
    rfl
  · have hg := get_none_of_positions (sch := View.viewSchema) (nam := View.viewName) hr.views hx
    refine ⟨{ c1 with views := (c1.views.set (x.viewSchema, x.viewName)
      (o.views.filter (·.viewSchema == x.viewSchema)).length) }, ?_, rfl, ?_⟩
    · simp only [CatalogCache.addOrUpdateView]
      rw [show (schemaOf0 o x.viewSchema).schemaName = x.viewSchema from rfl,
        addOrUpdateIn_new (by exact hg)]
      have hv : viewOf { o with views := o.views ++ [x] } x = x := by
        obtain ⟨b1, b2⟩ := hb
        simp only [viewOf, hi, ht, List.filter_nil]
        rw [← b1, ← b2]
      simp only [Option.map_some, schemaOf0, schemaOf, filter_snoc_eq (f := View.viewSchema),
        any_snoc_eq (f := View.viewSchema), List.map_append, List.map_singleton, hv,
        List.length_map]
      rfl
    · exact { hr with
        views := positions_snoc (sch := View.viewSchema) (nam := View.viewName) hr.views hg }

theorem addTable_ok {x : Table} (h : St o cat.schemas c)
    (hx : (x.tableSchema, x.tableName) ∉ o.tables.map fun x => (x.tableSchema, x.tableName))
    (hb : x.columns = [] ∧ x.constraints = [] ∧ x.indexes = [] ∧ x.triggers = [])
    (hc : o.columns = []) (hk : o.constraints = []) (hi : o.indexes = []) (ht : o.triggers = []) :
    ∃ ss c', addTable c cat x = some ({ cat with schemas := ss }, c') ∧
      St { o with tables := o.tables ++ [x] } ss c' := by
  refine orCreateSchema_ok h (fun m => ?_) (fun m hm => ?_) fun c1 hr => ?_
  · simp only [schemaNames, List.map_append, List.mem_append, List.map_singleton,
      List.mem_singleton]
    grind
  · simp only [schemaOf0, schemaOf, filter_snoc_ne (f := Table.tableSchema) hm]
    rfl
  · have hg := get_none_of_positions (sch := Table.tableSchema) (nam := Table.tableName) hr.tables hx
    refine ⟨{ c1 with tables := (c1.tables.set (x.tableSchema, x.tableName)
      (o.tables.filter (·.tableSchema == x.tableSchema)).length) }, ?_, rfl, ?_⟩
    · simp only [CatalogCache.addOrUpdateTable]
      rw [show (schemaOf0 o x.tableSchema).schemaName = x.tableSchema from rfl,
        addOrUpdateIn_new (by exact hg)]
      have hv : tableOf0 { o with tables := o.tables ++ [x] } x = x := by
        obtain ⟨b1, b2, b3, b4⟩ := hb
        simp only [tableOf0, tableOf, columnsOf, constraintsOf, hc, hk, hi, ht, List.filter_nil]
        rcases x with ⟨⟩
        simp_all
      simp only [Option.map_some, schemaOf0, schemaOf, filter_snoc_eq (f := Table.tableSchema),
        List.map_append, List.map_singleton, hv, List.length_map]
      rfl
    · refine { hr with
        tables := positions_snoc (sch := Table.tableSchema) (nam := Table.tableName) hr.tables hg
        columns := ?_ }
      intro t _ m i
      rw [hr.noColumns hc]
      simp [columnsOf, hc]

/-- In the list of a table or view that an object is added to. -/
theorem filter2_snoc {α : Type} {sch nam : α → Str} {p : α → Bool} {xs : List α} {x : α} {s t : Str} :
    (xs ++ [x]).filter (fun y => p y && sch y == s && nam y == t) =
      xs.filter (fun y => p y && sch y == s && nam y == t) ++
        if p x && sch x == s && nam x == t then [x] else [] := by
  simp [List.filter_append, List.filter_cons]

theorem filter2_snoc' {α : Type} {sch nam : α → Str} {xs : List α} {x : α} {s t : Str} :
    (xs ++ [x]).filter (fun y => sch y == s && nam y == t) =
      xs.filter (fun y => sch y == s && nam y == t) ++
        if sch x == s && nam x == t then [x] else [] := by
  simp [List.filter_append, List.filter_cons]

theorem addColumn_ok {x : Column} (h : St o cat.schemas c) (hb : Bare o)
    (hx : (x.tableSchema, x.tableName, x.columnName) ∉
      o.columns.map fun x => (x.tableSchema, x.tableName, x.columnName)) :
    ∃ ss c', addColumn c cat x = some ({ cat with schemas := ss }, c') ∧
      St { o with columns := o.columns ++ [x] } ss c' := by
  have hcol : ∀ t, columnsOf { o with columns := o.columns ++ [x] } t =
      columnsOf o t ++ if x.tableSchema == t.tableSchema && x.tableName == t.tableName then [x]
        else [] := fun t => filter2_snoc' (sch := Column.tableSchema) (nam := Column.tableName)
  have htab : ∀ t, (x.tableSchema = t.tableSchema → x.tableName ≠ t.tableName) →
      tableOf0 { o with columns := o.columns ++ [x] } t = tableOf0 o t := by
    intro t ht
    have : (x.tableSchema == t.tableSchema && x.tableName == t.tableName) = false := by
      simpa using ht
    simp only [tableOf0, hcol, this, Bool.false_eq_true, if_false, List.append_nil]
    rfl
  have hskip : (∀ t ∈ o.tables, t.tableSchema = x.tableSchema → t.tableName ≠ x.tableName) →
      ∀ c, Rest o c → Rest { o with columns := o.columns ++ [x] } c := by
    intro hno c hr
    refine { hr with columns := ?_, noColumns := by simp }
    intro t ht m i
    have : (x.tableSchema == t.tableSchema && x.tableName == t.tableName) = false := by
      have := hno t ht
      simp; grind
    rw [hcol, this]
    simpa using hr.columns t ht m i
  refine inSchema_ok h rfl (fun m hm => ?_) ?_ fun hn => hskip (fun t ht e => ?_) c h.rest
  · simp only [schemaOf0]
    congr 1
    refine List.map_congr_left fun t ht => htab t fun e => ?_
    obtain ⟨-, h2⟩ := List.mem_filter.1 ht
    exact absurd (e.trans (by simpa using h2)) fun e2 => hm e2.symm
  · refine inTable_ok h.rest hb rfl (fun t ht e1 e2 => htab t fun _ e3 => e2 e3.symm)
      (fun t ht e1 e2 => ?_) fun hno => hskip hno c h.rest
    have hg : c.columns.get (x.tableSchema, x.tableName, x.columnName) = none := by
      cases hg : c.columns.get (x.tableSchema, x.tableName, x.columnName) with
      | none => rfl
      | some i =>
        rw [← e1, ← e2] at hg
        obtain ⟨y, hy, hyn⟩ := (h.rest.columns t ht x.columnName i).1 hg
        obtain ⟨h1, h2⟩ := List.mem_filter.1 (List.mem_of_getElem? hy)
        simp only [Bool.and_eq_true, beq_iff_eq] at h2
        exact absurd (List.mem_map.2 ⟨y, h1, by rw [h2.1, h2.2, hyn, e1, e2]⟩) hx
    refine ⟨{ c with columns := (c.columns.set (t.tableSchema, t.tableName, x.columnName)
      (columnsOf o t).length) }, ?_, rfl, ?_⟩
    · simp only [CatalogCache.addOrUpdateColumn]
      rw [show (tableOf0 o t).tableSchema = t.tableSchema from rfl,
        show (tableOf0 o t).tableName = t.tableName from rfl,
        addOrUpdateIn_new (by rw [e1, e2]; exact hg),
        show { x with tableSchema := t.tableSchema, tableName := t.tableName } = x by rw [e1, e2]]
      simp only [tableOf0, hcol, Option.map_some]
      rw [if_pos (by simp [e1, e2])]
      rfl
    · refine { h.rest with columns := ?_, noColumns := by simp }
      intro t' ht' m i
      rw [PosMap.get_set]
      by_cases e : x.tableSchema = t'.tableSchema ∧ x.tableName = t'.tableName
      · have heq : columnsOf o t' = columnsOf o t := by
          simp only [columnsOf]; rw [← e.1, ← e.2, e1, e2]
        have hL := h.rest.columns t' ht' m i
        rw [hcol, ← e.1, ← e.2]
        rw [heq, ← e.1, ← e.2] at hL
        rw [heq, e1, e2]
        generalize columnsOf o t = L at *
        simp only [beq_self_eq_true, Bool.and_self, if_true]
        by_cases em : m = x.columnName
        · subst em
          rw [if_pos rfl]
          constructor
          · intro e; cases e; exact ⟨x, by simp, rfl⟩
          · rintro ⟨y, hy, hyn⟩
            by_cases hlt : i < L.length
            · rw [List.getElem?_append_left hlt] at hy
              have := hL.2 ⟨y, hy, hyn⟩
              rw [hg] at this
              cases this
            · have h2 := (List.getElem?_eq_some_iff.1 hy).1
              simp at h2
              rw [show i = L.length by omega]
        · rw [if_neg (fun e => em (by cases e; rfl)), hL]
          constructor
          · rintro ⟨y, hy, hyn⟩
            exact ⟨y, by rw [List.getElem?_append_left (List.getElem?_eq_some_iff.1 hy).1]; exact hy,
              hyn⟩
          · rintro ⟨y, hy, hyn⟩
            by_cases hlt : i < L.length
            · rw [List.getElem?_append_left hlt] at hy
              exact ⟨y, hy, hyn⟩
            · have h2 := (List.getElem?_eq_some_iff.1 hy).1
              simp at h2
              rw [show i = L.length by omega] at hy
              simp at hy
              subst hy
              exact absurd hyn.symm em
      · have h3 : (x.tableSchema == t'.tableSchema && x.tableName == t'.tableName) = false := by
          simpa using e
        rw [if_neg (fun e' => e (by
            simp only [Prod.mk.injEq] at e'
            exact ⟨e1.symm.trans e'.1.symm, e2.symm.trans e'.2.1.symm⟩)), hcol, h3]
        simpa using h.rest.columns t' ht' m i
  · exact absurd (by simp only [schemaNames, List.mem_append]; exact .inr (List.mem_map.2 ⟨t, ht, e⟩)) hn

theorem addConstraint_ok {x : Constraint} (h : St o cat.schemas c) (hb : Bare o)
    (hx : x.constraintName ≠ [] → (x.tableSchema, x.tableName, x.constraintName) ∉
      (o.constraints.filter (·.constraintName ≠ [])).map fun x =>
        (x.tableSchema, x.tableName, x.constraintName))
    (hp : ∃ t ∈ o.tables, t.tableSchema = x.tableSchema ∧ t.tableName = x.tableName) :
    ∃ ss c', addConstraint c cat x = some ({ cat with schemas := ss }, c') ∧
      St { o with constraints := o.constraints ++ [x] } ss c' := by
  have hcol : ∀ t, constraintsOf { o with constraints := o.constraints ++ [x] } t =
      constraintsOf o t ++ if x.tableSchema == t.tableSchema && x.tableName == t.tableName then [x]
        else [] := fun t =>
    filter2_snoc' (sch := Constraint.tableSchema) (nam := Constraint.tableName)
  have htab : ∀ t, (x.tableSchema = t.tableSchema → x.tableName ≠ t.tableName) →
      tableOf0 { o with constraints := o.constraints ++ [x] } t = tableOf0 o t := by
    intro t ht
    have : (x.tableSchema == t.tableSchema && x.tableName == t.tableName) = false := by
      simpa using ht
    simp only [tableOf0, tableOf, hcol, this, Bool.false_eq_true, if_false, List.append_nil]
    rfl
  have hgrow : ∀ c : CatalogCache, Rest o c →
      Rest { o with constraints := o.constraints ++ [x] } c := by
    intro c hr
    refine { hr with constraints := fun k i hk => ?_ }
    have := hr.constraints k i hk
    simp only [List.filter_append, List.map_append, List.mem_append]
    exact .inl this
  refine inSchema_ok h rfl (fun m hm => ?_) ?_ fun hn => hgrow c h.rest
  · simp only [schemaOf0]
    congr 1
    refine List.map_congr_left fun t ht => htab t fun e => ?_
    obtain ⟨-, h2⟩ := List.mem_filter.1 ht
    exact absurd (e.trans (by simpa using h2)) fun e2 => hm e2.symm
  · have key := inTable_ok (o' := { o with constraints := o.constraints ++ [x] }) (n := x.tableSchema)
      (t := x.tableName) (f := fun c t => c.addOrUpdateConstraint t x) h.rest hb rfl
      (fun t ht e1 e2 => htab t fun _ e3 => e2 e3.symm) (fun t ht e1 e2 => ?_)
      fun hno => hgrow c h.rest
    · obtain ⟨t, ht, e1, e2⟩ := hp
      have : t ∈ o.tables.filter (·.tableSchema == x.tableSchema) :=
        List.mem_filter.2 ⟨ht, by simpa using e1⟩
      obtain ⟨i, hi⟩ := List.mem_iff_getElem?.1 this
      have hg := (h.rest.tables x.tableSchema x.tableName i).2 ⟨t, hi, e2⟩
      have hti : (schemaOf0 o x.tableSchema).tables[i]? = some (tableOf0 o t) := by
        show ((o.tables.filter (·.tableSchema == x.tableSchema)).map (tableOf0 o))[i]? = _
        rw [List.getElem?_map, hi]; rfl
      have hig : (tableOf0 o t).ignore = false := (hb.tables t ht).1
      have e3 : (schemaOf0 o x.tableSchema).schemaName = x.tableSchema := rfl
      obtain ⟨c', he, hs, hr⟩ := key
      refine ⟨c', ?_, hs, hr⟩
      rw [← he]
      simp only [inTable, orCreateTable, CatalogCache.getOrCreateTable, getOrCreateIn, e3, hg,
        slot_found hti (ign := Table.ignore) hig, Option.map_some, Option.bind_some,
        Option.elim_some]
    · have hg : c.constraints.get (t.tableSchema, t.tableName, x.constraintName) = none := by
        rw [e1, e2]
        by_cases hn : x.constraintName = []
        · refine get_none_of_fresh h.rest.constraints fun hm => ?_
          obtain ⟨y, hy, he⟩ := List.mem_map.1 hm
          obtain ⟨-, hy2⟩ := List.mem_filter.1 hy
          simp only [Prod.mk.injEq] at he
          rw [he.2.2, hn] at hy2
          simp at hy2
        · exact get_none_of_fresh h.rest.constraints (hx hn)
      refine ⟨{ c.registerKey (tableOf0 o t) x.constraintType with
        constraints := (if x.constraintName = [] then c.constraints
          else c.constraints.set (t.tableSchema, t.tableName, x.constraintName)
            (constraintsOf o t).length) }, ?_, ?_, ?_⟩
      · simp only [CatalogCache.addOrUpdateConstraint]
        rw [show (tableOf0 o t).tableSchema = t.tableSchema from rfl,
          show (tableOf0 o t).tableName = t.tableName from rfl, hg,
          show { x with tableSchema := t.tableSchema, tableName := t.tableName } = x by
            rw [e1, e2]]
        simp only [slot, Option.elim_none, Option.map_some, tableOf0, tableOf, hcol]
        rw [if_pos (by simp [e1, e2] : (x.tableSchema == t.tableSchema &&
          x.tableName == t.tableName) = true)]
        rfl
      · simp only [CatalogCache.registerKey]
        split
        · rfl
        · split <;> rfl
      · have hr : Rest { o with constraints := o.constraints ++ [x] }
            { c with constraints := (if x.constraintName = [] then c.constraints
              else c.constraints.set (t.tableSchema, t.tableName, x.constraintName)
                (constraintsOf o t).length) } := by
          refine { hgrow c h.rest with constraints := fun k i hk => ?_ }
          by_cases hn : x.constraintName = []
          · rw [if_pos hn] at hk
            exact (hgrow c h.rest).constraints k i hk
          · rw [if_neg hn, e1, e2] at hk
            rw [List.filter_append, List.filter_cons_of_pos (by simpa using hn), List.filter_nil]
            exact fresh_set h.rest.constraints rfl _ k i hk
        simp only [CatalogCache.registerKey]
        split
        · exact { hr with }
        · split <;> exact { hr with }

theorem addIndex_ok {x : Index} (h : St o cat.schemas c) (hb : Bare o)
    (hx : (x.tableSchema, x.tableName, x.indexName) ∉
      o.indexes.map fun x => (x.tableSchema, x.tableName, x.indexName)) :
    ∃ ss c', addIndex c cat x = some ({ cat with schemas := ss }, c') ∧
      St { o with indexes := o.indexes ++ [x] } ss c' := by
  have hgrow : Rest { o with indexes := o.indexes ++ [x] } c := by
    refine { h.rest with indexes := fun k i hk => ?_ }
    rw [List.map_append]
    exact List.mem_append_left _ (h.rest.indexes k i hk)
  have hg := get_none_of_fresh h.rest.indexes hx
  have htab : ∀ t : Table, ¬ (x.isViewIndex = false ∧ x.tableSchema = t.tableSchema ∧
      x.tableName = t.tableName) →
      tableOf0 { o with indexes := o.indexes ++ [x] } t = tableOf0 o t := by
    intro t ht
    simp only [tableOf0, tableOf, filter2_snoc (sch := Index.tableSchema) (nam := Index.tableName)
      (p := fun y => !y.isViewIndex)]
    rw [if_neg (by simpa [and_assoc] using ht), List.append_nil]
    rfl
  have hview : ∀ t : View, ¬ (x.isViewIndex = true ∧ x.tableSchema = t.viewSchema ∧
      x.tableName = t.viewName) →
      viewOf { o with indexes := o.indexes ++ [x] } t = viewOf o t := by
    intro t ht
    simp only [viewOf, filter2_snoc (sch := Index.tableSchema) (nam := Index.tableName)
      (p := fun y => y.isViewIndex)]
    rw [if_neg (by simpa [and_assoc] using ht), List.append_nil]
  refine inSchema_ok h rfl (fun m hm => ?_) ?_ fun hn => hgrow
  · simp only [schemaOf0, schemaOf]
    congr 1
    · refine List.map_congr_left fun t ht => htab t fun e => hm ?_
      obtain ⟨-, h2⟩ := List.mem_filter.1 ht
      rw [e.2.1]
      exact (by simpa using h2 : t.tableSchema = m).symm
    · refine List.map_congr_left fun t ht => hview t fun e => hm ?_
      obtain ⟨-, h2⟩ := List.mem_filter.1 ht
      rw [e.2.1]
      exact (by simpa using h2 : t.viewSchema = m).symm
  · cases hv : x.isViewIndex with
    | true =>
      simp only [if_true]
      refine inView_ok h.rest hb ?_ (fun t ht e1 e2 => hview t fun e => e2 e.2.2.symm)
        (fun t ht e1 e2 => ?_) fun _ => hgrow
      · simp only [schemaOf0, schemaOf]
        congr 1
        exact List.map_congr_left fun t _ => htab t (by simp [hv])
      · refine ⟨{ c with indexes := (c.indexes.set (t.viewSchema, t.viewName, x.indexName)
          (viewOf o t).indexes.length) }, ?_, rfl,
          { h.rest with indexes := fresh_set h.rest.indexes (by rw [e1, e2]) _ }⟩
        simp only [CatalogCache.addOrUpdateViewIndex]
        rw [show (viewOf o t).viewSchema = t.viewSchema from rfl,
          show (viewOf o t).viewName = t.viewName from rfl,
          addOrUpdateIn_new (by rw [e1, e2]; exact hg),
          show { x with tableSchema := t.viewSchema, tableName := t.viewName } = x by rw [e1, e2]]
        simp only [Option.map_some, viewOf,
          filter2_snoc (sch := Index.tableSchema) (nam := Index.tableName)
          (p := fun y => y.isViewIndex)]
        rw [if_pos (by simp [e1, e2, hv])]
    | false =>
      simp only [Bool.false_eq_true, if_false]
      refine inTable_ok h.rest hb ?_ (fun t ht e1 e2 => htab t fun e => e2 e.2.2.symm)
        (fun t ht e1 e2 => ?_) fun _ => hgrow
      · simp only [schemaOf0, schemaOf]
        congr 1
        exact List.map_congr_left fun t _ => hview t (by simp [hv])
      · refine ⟨{ c with indexes := (c.indexes.set (t.tableSchema, t.tableName, x.indexName)
          (tableOf0 o t).indexes.length) }, ?_, rfl,
          { h.rest with indexes := fresh_set h.rest.indexes (by rw [e1, e2]) _ }⟩
        simp only [CatalogCache.addOrUpdateIndex]
        rw [show (tableOf0 o t).tableSchema = t.tableSchema from rfl,
          show (tableOf0 o t).tableName = t.tableName from rfl,
          addOrUpdateIn_new (by rw [e1, e2]; exact hg),
          show { x with tableSchema := t.tableSchema, tableName := t.tableName } = x by rw [e1, e2]]
        simp only [Option.map_some, tableOf0, tableOf,
          filter2_snoc (sch := Index.tableSchema) (nam := Index.tableName)
          (p := fun y => !y.isViewIndex)]
        rw [if_pos (by simp [e1, e2, hv])]
        rfl

theorem addTrigger_ok {x : Trigger} (h : St o cat.schemas c) (hb : Bare o)
    (hx : (x.tableSchema, x.tableName, x.triggerName) ∉
      o.triggers.map fun x => (x.tableSchema, x.tableName, x.triggerName)) :
    ∃ ss c', addTrigger c cat x = some ({ cat with schemas := ss }, c') ∧
      St { o with triggers := o.triggers ++ [x] } ss c' := by
  have hgrow : Rest { o with triggers := o.triggers ++ [x] } c := by
    refine { h.rest with triggers := fun k i hk => ?_ }
    rw [List.map_append]
    exact List.mem_append_left _ (h.rest.triggers k i hk)
  have hg := get_none_of_fresh h.rest.triggers hx
  have htab : ∀ t : Table, ¬ (x.isViewTrigger = false ∧ x.tableSchema = t.tableSchema ∧
      x.tableName = t.tableName) →
      tableOf0 { o with triggers := o.triggers ++ [x] } t = tableOf0 o t := by
    intro t ht
    simp only [tableOf0, tableOf, filter2_snoc (sch := Trigger.tableSchema)
      (nam := Trigger.tableName) (p := fun y => !y.isViewTrigger)]
    rw [if_neg (by simpa [and_assoc] using ht), List.append_nil]
    rfl
  have hview : ∀ t : View, ¬ (x.isViewTrigger = true ∧ x.tableSchema = t.viewSchema ∧
      x.tableName = t.viewName) →
      viewOf { o with triggers := o.triggers ++ [x] } t = viewOf o t := by
    intro t ht
    simp only [viewOf, filter2_snoc (sch := Trigger.tableSchema) (nam := Trigger.tableName)
      (p := fun y => y.isViewTrigger)]
    rw [if_neg (by simpa [and_assoc] using ht), List.append_nil]
  refine inSchema_ok h rfl (fun m hm => ?_) ?_ fun hn => hgrow
  · simp only [schemaOf0, schemaOf]
    congr 1
    · refine List.map_congr_left fun t ht => htab t fun e => hm ?_
      obtain ⟨-, h2⟩ := List.mem_filter.1 ht
      rw [e.2.1]
      exact (by simpa using h2 : t.tableSchema = m).symm
    · refine List.map_congr_left fun t ht => hview t fun e => hm ?_
      obtain ⟨-, h2⟩ := List.mem_filter.1 ht
      rw [e.2.1]
      exact (by simpa using h2 : t.viewSchema = m).symm
  · cases hv : x.isViewTrigger with
    | true =>
      simp only [if_true]
      refine inView_ok h.rest hb ?_ (fun t ht e1 e2 => hview t fun e => e2 e.2.2.symm)
        (fun t ht e1 e2 => ?_) fun _ => hgrow
      · simp only [schemaOf0, schemaOf]
        congr 1
        exact List.map_congr_left fun t _ => htab t (by simp [hv])
      · refine ⟨{ c with triggers := (c.triggers.set (t.viewSchema, t.viewName, x.triggerName)
          (viewOf o t).triggers.length) }, ?_, rfl,
          { h.rest with triggers := fresh_set h.rest.triggers (by rw [e1, e2]) _ }⟩
        simp only [CatalogCache.addOrUpdateViewTrigger]
        rw [show (viewOf o t).viewSchema = t.viewSchema from rfl,
          show (viewOf o t).viewName = t.viewName from rfl,
          addOrUpdateIn_new (by rw [e1, e2]; exact hg),
          show { x with tableSchema := t.viewSchema, tableName := t.viewName } = x by rw [e1, e2]]
        simp only [Option.map_some, viewOf,
          filter2_snoc (sch := Trigger.tableSchema) (nam := Trigger.tableName)
          (p := fun y => y.isViewTrigger)]
        rw [if_pos (by simp [e1, e2, hv])]
    | false =>
      simp only [Bool.false_eq_true, if_false]
      refine inTable_ok h.rest hb ?_ (fun t ht e1 e2 => htab t fun e => e2 e.2.2.symm)
        (fun t ht e1 e2 => ?_) fun _ => hgrow
      · simp only [schemaOf0, schemaOf]
        congr 1
        exact List.map_congr_left fun t _ => hview t (by simp [hv])
      · refine ⟨{ c with triggers := (c.triggers.set (t.tableSchema, t.tableName, x.triggerName)
          (tableOf0 o t).triggers.length) }, ?_, rfl,
          { h.rest with triggers := fresh_set h.rest.triggers (by rw [e1, e2]) _ }⟩
        simp only [CatalogCache.addOrUpdateTrigger]
        rw [show (tableOf0 o t).tableSchema = t.tableSchema from rfl,
          show (tableOf0 o t).tableName = t.tableName from rfl,
          addOrUpdateIn_new (by rw [e1, e2]; exact hg),
          show { x with tableSchema := t.tableSchema, tableName := t.tableName } = x by rw [e1, e2]]
        simp only [Option.map_some, tableOf0, tableOf,
          filter2_snoc (sch := Trigger.tableSchema) (nam := Trigger.tableName)
          (p := fun y => !y.isViewTrigger)]
        rw [if_pos (by simp [e1, e2, hv])]
        rfl

end Sqddl.Introspect
