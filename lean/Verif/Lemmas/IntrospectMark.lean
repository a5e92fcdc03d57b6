import Verif.Lemmas.IntrospectSteps

/-!
# Marking the columns, and the catalog that results
-/

namespace Sqddl.Introspect
open IntrospectSpec

theorem fkeyOf_snoc {ks : List Constraint} {k : Constraint} {x : Column} :
    fkeyOf (ks ++ [k]) x = if keyOf FOREIGN_KEY x k then some k else fkeyOf ks x := by
  simp only [fkeyOf, List.filter_append]
  cases h : keyOf FOREIGN_KEY x k <;> simp [List.filter_cons, h]

theorem marked_nil {x : Column} : marked [] x = x := by
  simp [marked, fkeyOf, refers]

theorem marked_name {ks : List Constraint} {x : Column} :
    (marked ks x).columnName = x.columnName := by
  simp only [marked]; cases fkeyOf ks x <;> rfl

theorem marked_ignore {ks : List Constraint} {x : Column} :
    (marked ks x).ignore = x.ignore := by
  simp only [marked]; cases fkeyOf ks x <;> rfl

/-- A constraint that is not a key of the column says nothing about it. -/
theorem marked_other {ks : List Constraint} {k : Constraint} {x : Column}
    (h1 : keyOf PRIMARY_KEY x k = false) (h2 : keyOf UNIQUE x k = false)
    (h3 : keyOf FOREIGN_KEY x k = false) : marked (ks ++ [k]) x = marked ks x := by
  simp only [marked, fkeyOf_snoc, h1, h2, h3, List.any_append, List.any_cons, List.any_nil,
    Bool.or_false, Bool.false_eq_true, if_false]

theorem marked_key {ks : List Constraint} {k : Constraint} {x : Column} {n : Str}
    (hc : k.columns = [n]) (hn : x.columnName = n)
    (ht : k.constraintType = PRIMARY_KEY ∨ k.constraintType = UNIQUE ∨
      k.constraintType = FOREIGN_KEY)
    (hr : k.constraintType = FOREIGN_KEY → k.referencesColumns ≠ []) :
    markColumn k (marked ks x) = some (marked (ks ++ [k]) x) := by
  subst hn
  have hpu : (PRIMARY_KEY == UNIQUE) = false := by decide
  have hpf : (PRIMARY_KEY == FOREIGN_KEY) = false := by decide
  have huf : (UNIQUE == FOREIGN_KEY) = false := by decide
  have hup : (UNIQUE == PRIMARY_KEY) = false := by decide
  have hfp : (FOREIGN_KEY == PRIMARY_KEY) = false := by decide
  have hfu : (FOREIGN_KEY == UNIQUE) = false := by decide
  have hup' : UNIQUE ≠ PRIMARY_KEY := by decide
  have hfp' : FOREIGN_KEY ≠ PRIMARY_KEY := by decide
  have hfu' : FOREIGN_KEY ≠ UNIQUE := by decide
  rcases ht with ht | ht | ht
  · simp only [markColumn, ht, if_true, marked, fkeyOf_snoc, keyOf, hc, hpu, hpf, List.any_append,
      List.any_cons, List.any_nil, Bool.false_and, beq_self_eq_true, Bool.true_and, Bool.or_true,
      Bool.or_false, Bool.false_eq_true, if_false]
    cases fkeyOf ks x <;> simp [refers]
  · simp only [markColumn, ht, if_true, marked, fkeyOf_snoc, keyOf, hc, hup, huf, hup',
      List.any_append, List.any_cons, List.any_nil, Bool.false_and, beq_self_eq_true, Bool.true_and,
      Bool.or_true, Bool.or_false, Bool.false_eq_true, if_false]
    cases fkeyOf ks x <;> simp [refers]
  · cases hrc : k.referencesColumns with
    | nil => exact absurd hrc (hr ht)
    | cons r rs =>
      simp only [markColumn, ht, hfp', hfu', if_true, marked, fkeyOf_snoc, keyOf, hc, hfp, hfu,
        List.any_append, List.any_cons, List.any_nil, Bool.false_and, beq_self_eq_true,
        Bool.true_and, Bool.or_false, if_false, hrc, List.head?_cons, Option.map_some,
        List.headD_cons]
      cases fkeyOf ks x <;> simp [refers, hrc]

/-- All constraints of a table are looked at. -/
theorem markTable_ok {o : Reported} {c : CatalogCache} (hr : Rest o c) (hb : Bare o)
    (hkn : KeysKnown o) {t : Table} (ht : t ∈ o.tables) :
    markTable c (tableOf0 o t) = some (tableOf o t) := by
  have hstep : ∀ done k, k ∈ constraintsOf o t →
      markConstraint c { tableOf0 o t with columns := (columnsOf o t).map (marked done) } k =
        some { tableOf0 o t with columns := (columnsOf o t).map (marked (done ++ [k])) } := by
    intro done k hk
    obtain ⟨hk1, hk2⟩ := List.mem_filter.1 hk
    simp only [Bool.and_eq_true, beq_iff_eq] at hk2
    have hother : (∀ n, k.columns = [n] → ¬ (k.constraintType = PRIMARY_KEY ∨
        k.constraintType = UNIQUE ∨ k.constraintType = FOREIGN_KEY)) →
        ∀ x, marked (done ++ [k]) x = marked done x := by
      intro hno x
      have : ∀ ty, ty = PRIMARY_KEY ∨ ty = UNIQUE ∨ ty = FOREIGN_KEY → keyOf ty x k = false := by
        intro ty hty
        rw [Bool.eq_false_iff]
        intro hh
        simp only [keyOf, Bool.and_eq_true, beq_iff_eq] at hh
        exact hno _ hh.2 (hh.1 ▸ hty)
      exact marked_other (this _ (.inl rfl)) (this _ (.inr (.inl rfl))) (this _ (.inr (.inr rfl)))
    unfold markConstraint
    split
    · rename_i n hn
      split
      · rename_i hty
        obtain ⟨⟨x, hx, e1, e2, e3⟩, hrefs⟩ := hkn k hk1 n hn hty
        have hxc : x ∈ columnsOf o t :=
          List.mem_filter.2 ⟨hx, by simp [e1, e2, hk2.1, hk2.2]⟩
        obtain ⟨i, hi⟩ := List.mem_iff_getElem?.1 hxc
        have hg := (hr.columns t ht n i).2 ⟨x, hi, e3⟩
        have hget : ((columnsOf o t).map (marked done))[i]? = some (marked done x) := by
          rw [List.getElem?_map, hi]; rfl
        have hmk := marked_key (ks := done) hn e3 hty hrefs
        simp only [show (tableOf0 o t).tableSchema = t.tableSchema from rfl,
          show (tableOf0 o t).tableName = t.tableName from rfl, hg,
          slot_found hget (ign := Column.ignore) (by rw [marked_ignore]; exact hb.columns x hx),
          Option.bind_some, Option.elim_some, hget, hmk, Option.map_some]
        congr 2
        refine map_set_eq hi fun j y hy hj => ?_
        have : ∀ ty, keyOf ty y k = false := by
          intro ty
          rw [Bool.eq_false_iff]
          intro hh
          simp only [keyOf, Bool.and_eq_true, beq_iff_eq] at hh
          rw [hn] at hh
          have hyn : y.columnName = n := (List.cons.inj hh.2).1.symm
          have := (hr.columns t ht n j).2 ⟨y, hy, hyn⟩
          rw [hg] at this
          exact hj (Option.some.inj this).symm
        exact marked_other (this _) (this _) (this _)
      · rename_i hty
        rw [List.map_congr_left fun x _ => hother (fun _ _ => hty) x]
    · rename_i hn
      rw [List.map_congr_left fun x _ => hother (fun n h => absurd h (hn n)) x]
  have hfold : ∀ rest done, (∀ k ∈ rest, k ∈ constraintsOf o t) →
      rest.foldlM (markConstraint c)
          { tableOf0 o t with columns := (columnsOf o t).map (marked done) } =
        some { tableOf0 o t with columns := (columnsOf o t).map (marked (done ++ rest)) } := by
    intro rest
    induction rest with
    | nil => intro done _; simp
    | cons k r ih =>
      intro done hk
      rw [List.foldlM_cons, hstep done k (hk k (by simp))]
      simp only [Option.bind_eq_bind, Option.bind_some]
      rw [ih (done ++ [k]) fun k' h' => hk k' (by simp [h'])]
      simp
  have h0 : (columnsOf o t).map (marked []) = columnsOf o t := by
    rw [List.map_congr_left fun x _ => marked_nil (x := x), List.map_id']
  have := hfold (constraintsOf o t) [] fun k hk => hk
  rw [h0, List.nil_append] at this
  exact this

theorem mapM_some {α β : Type} {f : α → Option β} {g : α → β} {xs : List α}
    (h : ∀ x ∈ xs, f x = some (g x)) : xs.mapM f = some (xs.map g) := by
  induction xs with
  | nil => rfl
  | cons x r ih =>
    rw [List.mapM_cons, h x (by simp), ih fun y hy => h y (by simp [hy])]
    rfl

theorem markCatalog_ok {o : Reported} {cat : Catalog} {c : CatalogCache} (h : St o cat.schemas c)
    (hb : Bare o) (hkn : KeysKnown o) :
    ∃ ss, markCatalog c cat = some { cat with schemas := ss } ∧ Holds o ss := by
  obtain ⟨ns, hnd, hmem, hss, -⟩ := h.ex
  have hone : ∀ n, ((schemaOf0 o n).tables.mapM (markTable c)).map
      (fun ts => { schemaOf0 o n with tables := ts }) = some (schemaOf o n) := by
    intro n
    have : (schemaOf0 o n).tables.mapM (markTable c) = some (schemaOf o n).tables := by
      show ((o.tables.filter (·.tableSchema == n)).map (tableOf0 o)).mapM (markTable c) =
        some ((o.tables.filter (·.tableSchema == n)).map (tableOf o))
      rw [List.mapM_map]
      exact mapM_some fun t ht => markTable_ok h.rest hb hkn (List.mem_filter.1 ht).1
    rw [this]
    rfl
  refine ⟨ns.map (schemaOf o), ?_, ?_, ?_, ?_⟩
  · have : cat.schemas.mapM (fun (s : Schema) =>
        (s.tables.mapM (markTable c)).map fun ts => { s with tables := ts }) =
        some (ns.map (schemaOf o)) := by
      rw [hss, List.mapM_map]
      exact mapM_some fun n _ => hone n
    simp only [markCatalog, this, Option.map_some]
  · rw [List.map_map]
    exact (List.map_id ns).symm ▸ hnd
  · intro n
    rw [List.map_map, show ns.map (Schema.schemaName ∘ schemaOf o) = ns from List.map_id ns]
    exact hmem n
  · intro s hs
    obtain ⟨n, -, rfl⟩ := List.mem_map.1 hs
    rfl

end Sqddl.Introspect
