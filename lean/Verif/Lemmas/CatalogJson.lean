import Verif.Model.CatalogJson
import Verif.Spec.CatalogTexts
import Verif.Lemmas.Json

/-!
# Catalogs that are written as JSON are read again
-/

namespace Sqddl.CatalogJson
open Go JsonText CatalogTexts

/-! ## Members -/

theorem utf8_ascii {s : Str} (h : ∀ c ∈ s, c.toNat < 0x80) : Utf8 s := by
  refine ⟨s.map Char.toNat, ?_, ?_⟩
  · intro n hn
    obtain ⟨c, hc, rfl⟩ := List.mem_map.1 hn
    exact .inl (by have := h c hc; omega)
  · induction s with
    | nil => rfl
    | cons c s ih =>
      have hc := h c (by simp)
      rw [List.map_cons, List.flatMap_cons, ih (fun x hx => h x (by simp [hx])), encode, if_pos hc]
      simp [byte, Char.ofNat_toNat]

theorem clean_append (a b : List (Str × Json)) : CleanMembers (a ++ b) ↔ CleanMembers a ∧ CleanMembers b := by
  induction a with
  | nil => simp [CleanMembers]
  | cons m a ih => simp [CleanMembers, ih, and_assoc]

theorem cleanItems_of {xs : List Json} (h : ∀ x ∈ xs, Clean x) : CleanItems xs := by
  induction xs with
  | nil => trivial
  | cons x xs ih => exact ⟨h x (by simp), ih fun y hy => h y (by simp [hy])⟩

theorem cleanMembers_of {ms : List (Str × Json)} (h : ∀ m ∈ ms, Utf8 m.1 ∧ Clean m.2) : CleanMembers ms := by
  induction ms with
  | nil => trivial
  | cons m ms ih =>
    obtain ⟨k, x⟩ := m
    exact ⟨h (k, x) (by simp), ih fun y hy => h y (by simp [hy])⟩

theorem clean_str {k s : Str} (hk : ∀ c ∈ k, c.toNat < 0x80) (hs : Utf8 s) : CleanMembers (str k s) := by
  unfold str
  by_cases h : s = []
  · rw [if_pos h]; trivial
  · rw [if_neg h]; exact ⟨⟨utf8_ascii hk, hs⟩, trivial⟩

theorem clean_flag {k : Str} {b : Bool} (hk : ∀ c ∈ k, c.toNat < 0x80) : CleanMembers (flag k b) := by
  unfold flag
  by_cases h : b = false
  · rw [if_pos h]; trivial
  · rw [if_neg h]; exact ⟨⟨utf8_ascii hk, trivial⟩, trivial⟩

theorem clean_list {α : Type} {f : α → Json} {k : Str} {xs : List α} (hk : ∀ c ∈ k, c.toNat < 0x80)
    (hx : ∀ x ∈ xs, Clean (f x)) : CleanMembers (list f k xs) := by
  unfold list
  by_cases h : xs = []
  · rw [if_pos h]; trivial
  · rw [if_neg h]
    exact ⟨⟨utf8_ascii hk, cleanItems_of fun x hm => by
      obtain ⟨y, hy, rfl⟩ := List.mem_map.1 hm
      exact hx y hy⟩, trivial⟩

theorem clean_attrs {k : Str} {xs : List (Str × Str)} (hk : ∀ c ∈ k, c.toNat < 0x80)
    (hx : ∀ s ∈ xs.flatMap fun p => [p.1, p.2], Utf8 s) : CleanMembers (attrs k xs) := by
  unfold attrs
  by_cases h : xs = []
  · rw [if_pos h]; trivial
  · rw [if_neg h]
    refine ⟨⟨utf8_ascii hk, cleanMembers_of fun m hm => ?_⟩, trivial⟩
    obtain ⟨p, hp, rfl⟩ := List.mem_map.1 hm
    have hp := List.mem_mergeSort.1 hp
    exact ⟨hx _ (List.mem_flatMap.2 ⟨p, hp, by simp⟩), hx _ (List.mem_flatMap.2 ⟨p, hp, by simp⟩)⟩

/-! ## Fields -/

theorem get_str_any {σ : Type} {fs : Fields σ} {k s : Str} {r : List (Str × Json)} {p : σ} {get : σ → Str}
    {set : Str → σ → σ} (hl : fs.lookup k = some (fun j x => (getStr j (get x)).map fun y => set y x)) :
    getMembers fs (str k s ++ r) p = getMembers fs r (if s = [] then p else set s p) := by
  unfold str
  by_cases h : s = []
  · rw [if_pos h, if_pos h]; rfl
  · rw [if_neg h, if_neg h, List.cons_append, List.nil_append, getMembers, hl]
    rfl

theorem get_str {σ : Type} {fs : Fields σ} {k s : Str} {r : List (Str × Json)} {p : σ} {get : σ → Str}
    {set : Str → σ → σ} (hl : fs.lookup k = some (fun j x => (getStr j (get x)).map fun y => set y x))
    (h0 : set [] p = p) : getMembers fs (str k s ++ r) p = getMembers fs r (set s p) := by
  rw [get_str_any hl]
  by_cases h : s = []
  · rw [if_pos h, h, h0]
  · rw [if_neg h]

theorem get_flag {σ : Type} {fs : Fields σ} {k : Str} {b : Bool} {r : List (Str × Json)} {p : σ}
    {get : σ → Bool} {set : Bool → σ → σ}
    (hl : fs.lookup k = some (fun j x => (getFlag j (get x)).map fun y => set y x))
    (h0 : set false p = p) : getMembers fs (flag k b ++ r) p = getMembers fs r (set b p) := by
  unfold flag
  by_cases h : b = false
  · rw [if_pos h, h, h0]; rfl
  · rw [if_neg h, List.cons_append, List.nil_append, getMembers, hl]
    rfl

theorem getItems_map {α : Type} {f : Json → α → Option α} {zero : α} {g : α → Json} {xs : List α}
    (h : ∀ x ∈ xs, f (g x) zero = some x) : getItems f zero (xs.map g) [] = some xs := by
  induction xs with
  | nil => rfl
  | cons x xs ih =>
    rw [List.map_cons, getItems]
    simp only [List.head?_nil, Option.getD_none, List.tail_nil]
    rw [h x (by simp), ih fun y hy => h y (by simp [hy])]
    rfl

theorem get_list {σ α : Type} {fs : Fields σ} {k : Str} {f : α → Json} {dec : Json → α → Option α} {zero : α}
    {xs : List α} {r : List (Str × Json)} {p : σ} {get : σ → List α} {set : List α → σ → σ}
    (hl : fs.lookup k = some (fun j x => (getList dec zero j (get x)).map fun y => set y x))
    (h0 : set [] p = p) (hg : get p = []) (hx : ∀ x ∈ xs, dec (f x) zero = some x) :
    getMembers fs (list f k xs ++ r) p = getMembers fs r (set xs p) := by
  unfold list
  by_cases h : xs = []
  · rw [if_pos h, h, h0]; rfl
  · rw [if_neg h, List.cons_append, List.nil_append, getMembers, hl]
    dsimp only
    rw [getList, hg, getItems_map hx]
    rfl

theorem putAttr_new {k v : Str} {m : List (Str × Str)} (h : ∀ p ∈ m, p.1 ≠ k) : putAttr k v m = m ++ [(k, v)] := by
  induction m with
  | nil => rfl
  | cons p m ih =>
    rw [putAttr, if_neg (h p (by simp)), ih fun q hq => h q (by simp [hq])]
    rfl

theorem getPairs_append (xs old : List (Str × Str))
    (h : (old ++ xs).Pairwise fun a b => a.1 < b.1) :
    getPairs (xs.map fun p => (p.1, .str p.2)) old = some (old ++ xs) := by
  induction xs generalizing old with
  | nil => simp [getPairs]
  | cons p xs ih =>
    have hn : ∀ q ∈ old, q.1 ≠ p.1 := fun q hq e => by
      have := (List.pairwise_append.1 h).2.2 q hq p (by simp)
      rw [e] at this
      exact List.lt_irrefl _ this
    rw [List.map_cons, getPairs]
    show getPairs _ (putAttr p.1 p.2 old) = _
    rw [putAttr_new hn, ih]
    · simp
    · simpa using h

theorem sorted_mergeSort {m : List (Str × Str)} (h : Sorted m) :
    (m.mergeSort fun a b => decide (a.1 ≤ b.1)) = m := by
  apply List.mergeSort_of_pairwise
  exact h.imp fun hab => by simpa using List.le_of_lt hab

theorem get_attrs {σ : Type} {fs : Fields σ} {k : Str} {xs : List (Str × Str)} {r : List (Str × Json)} {p : σ}
    {get : σ → List (Str × Str)} {set : List (Str × Str) → σ → σ}
    (hl : fs.lookup k = some (fun j x => (getAttrs j (get x)).map fun y => set y x))
    (h0 : set [] p = p) (hg : get p = []) (hx : Sorted xs) :
    getMembers fs (attrs k xs ++ r) p = getMembers fs r (set xs p) := by
  unfold attrs
  by_cases h : xs = []
  · rw [if_pos h, h, h0]; rfl
  · rw [if_neg h, List.cons_append, List.nil_append, getMembers, hl, sorted_mergeSort hx]
    dsimp only
    rw [getAttrs, hg, getPairs_append xs [] hx]
    rfl

/-! ## Records -/

attribute [local irreducible] enumMembers domainMembers routineMembers columnMembers constraintMembers indexMembers
  triggerMembers viewMembers tableMembers schemaMembers catalogMembers

theorem clean_enum {x : Enum} (h : ∀ s ∈ enumTexts x, Utf8 s) : Clean (enum x) := by
  rw [enum, Clean]
  delta enumMembers
  simp only [List.append_assoc, clean_append]
  exact ⟨clean_str (by decide) (h _ (by simp [enumTexts])),
    clean_str (by decide) (h _ (by simp [enumTexts])),
    clean_list (by decide) fun y hy => h y (by simp [enumTexts, hy]),
    clean_str (by decide) (h _ (by simp [enumTexts])),
    clean_flag (by decide)⟩

theorem get_enum {x : Enum} :
    getRecord enumFields (enum x) {} = some x := by
  rw [enum, getRecord]
  rw [← List.append_nil (enumMembers x)]
  delta enumMembers
  simp only [List.append_assoc]
  rw [get_str (get := fun x => x.enumSchema) (set := fun y x => { x with enumSchema := y }) rfl rfl]
  rw [get_str (get := fun x => x.enumName) (set := fun y x => { x with enumName := y }) rfl rfl]
  rw [get_list (get := fun x => x.enumLabels) (set := fun y x => { x with enumLabels := y }) rfl rfl rfl fun _ _ => rfl]
  rw [get_str (get := fun x => x.comment) (set := fun y x => { x with comment := y }) rfl rfl]
  rw [get_flag (get := fun x => x.ignore) (set := fun y x => { x with ignore := y }) rfl rfl]
  rfl

theorem clean_domain {x : Domain} (h : ∀ s ∈ domainTexts x, Utf8 s) : Clean (domain x) := by
  rw [domain, Clean]
  delta domainMembers
  simp only [List.append_assoc, clean_append]
  exact ⟨clean_str (by decide) (h _ (by simp [domainTexts])),
    clean_str (by decide) (h _ (by simp [domainTexts])),
    clean_str (by decide) (h _ (by simp [domainTexts])),
    clean_str (by decide) (h _ (by simp [domainTexts])),
    clean_flag (by decide),
    clean_str (by decide) (h _ (by simp [domainTexts])),
    clean_list (by decide) fun y hy => h y (by simp [domainTexts, hy]),
    clean_list (by decide) fun y hy => h y (by simp [domainTexts, hy]),
    clean_str (by decide) (h _ (by simp [domainTexts])),
    clean_flag (by decide)⟩

theorem get_domain {x : Domain} :
    getRecord domainFields (domain x) {} = some x := by
  rw [domain, getRecord]
  rw [← List.append_nil (domainMembers x)]
  delta domainMembers
  simp only [List.append_assoc]
  rw [get_str (get := fun x => x.domainSchema) (set := fun y x => { x with domainSchema := y }) rfl rfl]
  rw [get_str (get := fun x => x.domainName) (set := fun y x => { x with domainName := y }) rfl rfl]
  rw [get_str (get := fun x => x.underlyingType) (set := fun y x => { x with underlyingType := y }) rfl rfl]
  rw [get_str (get := fun x => x.collationName) (set := fun y x => { x with collationName := y }) rfl rfl]
  rw [get_flag (get := fun x => x.isNotNull) (set := fun y x => { x with isNotNull := y }) rfl rfl]
  rw [get_str (get := fun x => x.columnDefault) (set := fun y x => { x with columnDefault := y }) rfl rfl]
  rw [get_list (get := fun x => x.checkNames) (set := fun y x => { x with checkNames := y }) rfl rfl rfl fun _ _ => rfl]
  rw [get_list (get := fun x => x.checkExprs) (set := fun y x => { x with checkExprs := y }) rfl rfl rfl fun _ _ => rfl]
  rw [get_str (get := fun x => x.comment) (set := fun y x => { x with comment := y }) rfl rfl]
  rw [get_flag (get := fun x => x.ignore) (set := fun y x => { x with ignore := y }) rfl rfl]
  rfl

theorem clean_routine {x : Routine} (h : ∀ s ∈ routineTexts x, Utf8 s) : Clean (routine x) := by
  rw [routine, Clean]
  delta routineMembers
  simp only [List.append_assoc, clean_append]
  exact ⟨clean_str (by decide) (h _ (by simp [routineTexts])),
    clean_str (by decide) (h _ (by simp [routineTexts])),
    clean_str (by decide) (h _ (by simp [routineTexts])),
    clean_str (by decide) (h _ (by simp [routineTexts])),
    clean_str (by decide) (h _ (by simp [routineTexts])),
    clean_attrs (by decide) fun y hy => h y (by
      rw [routineTexts]; exact List.mem_append_right _ hy),
    clean_str (by decide) (h _ (by simp [routineTexts])),
    clean_flag (by decide)⟩

theorem get_routine {x : Routine} (h : ∀ m ∈ routineMaps x, Sorted m) :
    getRecord routineFields (routine x) {} = some x := by
  rw [routine, getRecord]
  rw [← List.append_nil (routineMembers x)]
  delta routineMembers
  simp only [List.append_assoc]
  rw [get_str (get := fun x => x.routineSchema) (set := fun y x => { x with routineSchema := y }) rfl rfl]
  rw [get_str (get := fun x => x.routineName) (set := fun y x => { x with routineName := y }) rfl rfl]
  rw [get_str (get := fun x => x.identityArguments) (set := fun y x => { x with identityArguments := y }) rfl rfl]
  rw [get_str (get := fun x => x.routineType) (set := fun y x => { x with routineType := y }) rfl rfl]
  rw [get_str (get := fun x => x.sql) (set := fun y x => { x with sql := y }) rfl rfl]
  rw [get_attrs (get := fun x => x.attrs) (set := fun y x => { x with attrs := y }) rfl rfl rfl (h _ (by simp [routineMaps]))]
  rw [get_str (get := fun x => x.comment) (set := fun y x => { x with comment := y }) rfl rfl]
  rw [get_flag (get := fun x => x.ignore) (set := fun y x => { x with ignore := y }) rfl rfl]
  rfl

theorem clean_column {x : Column} (h : ∀ s ∈ columnTexts x, Utf8 s) : Clean (column x) := by
  rw [column, Clean]
  delta columnMembers
  simp only [List.append_assoc, clean_append]
  exact ⟨clean_str (by decide) (h _ (by simp [columnTexts])),
    clean_str (by decide) (h _ (by simp [columnTexts])),
    clean_str (by decide) (h _ (by simp [columnTexts])),
    clean_str (by decide) (h _ (by simp [columnTexts])),
    clean_str (by decide) (h _ (by simp [columnTexts])),
    clean_str (by decide) (h _ (by simp [columnTexts])),
    clean_str (by decide) (h _ (by simp [columnTexts])),
    clean_str (by decide) (h _ (by simp [columnTexts])),
    clean_flag (by decide),
    clean_flag (by decide),
    clean_flag (by decide),
    clean_flag (by decide),
    clean_flag (by decide),
    clean_str (by decide) (h _ (by simp [columnTexts])),
    clean_str (by decide) (h _ (by simp [columnTexts])),
    clean_str (by decide) (h _ (by simp [columnTexts])),
    clean_str (by decide) (h _ (by simp [columnTexts])),
    clean_str (by decide) (h _ (by simp [columnTexts])),
    clean_flag (by decide),
    clean_flag (by decide),
    clean_str (by decide) (h _ (by simp [columnTexts])),
    clean_str (by decide) (h _ (by simp [columnTexts])),
    clean_flag (by decide),
    clean_flag (by decide),
    clean_str (by decide) (h _ (by simp [columnTexts])),
    clean_flag (by decide),
    clean_str (by decide) (h _ (by simp [columnTexts])),
    clean_str (by decide) (h _ (by simp [columnTexts])),
    clean_flag (by decide)⟩

theorem get_column {x : Column} :
    getRecord columnFields (column x) {} = some x := by
  rw [column, getRecord]
  rw [← List.append_nil (columnMembers x)]
  delta columnMembers
  simp only [List.append_assoc]
  rw [get_str (get := fun x => x.tableSchema) (set := fun y x => { x with tableSchema := y }) rfl rfl]
  rw [get_str (get := fun x => x.tableName) (set := fun y x => { x with tableName := y }) rfl rfl]
  rw [get_str (get := fun x => x.columnName) (set := fun y x => { x with columnName := y }) rfl rfl]
  rw [get_str (get := fun x => x.columnType) (set := fun y x => { x with columnType := y }) rfl rfl]
  rw [get_str (get := fun x => x.characterLength) (set := fun y x => { x with characterLength := y }) rfl rfl]
  rw [get_str (get := fun x => x.numericPrecision) (set := fun y x => { x with numericPrecision := y }) rfl rfl]
  rw [get_str (get := fun x => x.numericScale) (set := fun y x => { x with numericScale := y }) rfl rfl]
  rw [get_str (get := fun x => x.domainName) (set := fun y x => { x with domainName := y }) rfl rfl]
  rw [get_flag (get := fun x => x.isEnum) (set := fun y x => { x with isEnum := y }) rfl rfl]
  rw [get_flag (get := fun x => x.isNotNull) (set := fun y x => { x with isNotNull := y }) rfl rfl]
  rw [get_flag (get := fun x => x.isPrimaryKey) (set := fun y x => { x with isPrimaryKey := y }) rfl rfl]
  rw [get_flag (get := fun x => x.isUnique) (set := fun y x => { x with isUnique := y }) rfl rfl]
  rw [get_flag (get := fun x => x.isAutoincrement) (set := fun y x => { x with isAutoincrement := y }) rfl rfl]
  rw [get_str (get := fun x => x.referencesSchema) (set := fun y x => { x with referencesSchema := y }) rfl rfl]
  rw [get_str (get := fun x => x.referencesTable) (set := fun y x => { x with referencesTable := y }) rfl rfl]
  rw [get_str (get := fun x => x.referencesColumn) (set := fun y x => { x with referencesColumn := y }) rfl rfl]
  rw [get_str (get := fun x => x.updateRule) (set := fun y x => { x with updateRule := y }) rfl rfl]
  rw [get_str (get := fun x => x.deleteRule) (set := fun y x => { x with deleteRule := y }) rfl rfl]
  rw [get_flag (get := fun x => x.isDeferrable) (set := fun y x => { x with isDeferrable := y }) rfl rfl]
  rw [get_flag (get := fun x => x.isInitiallyDeferred) (set := fun y x => { x with isInitiallyDeferred := y }) rfl rfl]
  rw [get_str (get := fun x => x.columnIdentity) (set := fun y x => { x with columnIdentity := y }) rfl rfl]
  rw [get_str (get := fun x => x.columnDefault) (set := fun y x => { x with columnDefault := y }) rfl rfl]
  rw [get_flag (get := fun x => x.onUpdateCurrentTimestamp) (set := fun y x => { x with onUpdateCurrentTimestamp := y }) rfl rfl]
  rw [get_flag (get := fun x => x.isGenerated) (set := fun y x => { x with isGenerated := y }) rfl rfl]
  rw [get_str (get := fun x => x.generatedExpr) (set := fun y x => { x with generatedExpr := y }) rfl rfl]
  rw [get_flag (get := fun x => x.generatedExprStored) (set := fun y x => { x with generatedExprStored := y }) rfl rfl]
  rw [get_str (get := fun x => x.collationName) (set := fun y x => { x with collationName := y }) rfl rfl]
  rw [get_str (get := fun x => x.comment) (set := fun y x => { x with comment := y }) rfl rfl]
  rw [get_flag (get := fun x => x.ignore) (set := fun y x => { x with ignore := y }) rfl rfl]
  rfl

theorem clean_constraint {x : Constraint} (h : ∀ s ∈ constraintTexts x, Utf8 s) : Clean (constraint x) := by
  rw [constraint, Clean]
  delta constraintMembers
  simp only [List.append_assoc, clean_append]
  exact ⟨clean_str (by decide) (h _ (by simp [constraintTexts])),
    clean_str (by decide) (h _ (by simp [constraintTexts])),
    clean_str (by decide) (h _ (by simp [constraintTexts])),
    clean_str (by decide) (h _ (by simp [constraintTexts])),
    clean_list (by decide) fun y hy => h y (by simp [constraintTexts, hy]),
    clean_str (by decide) (h _ (by simp [constraintTexts])),
    clean_str (by decide) (h _ (by simp [constraintTexts])),
    clean_list (by decide) fun y hy => h y (by simp [constraintTexts, hy]),
    clean_str (by decide) (h _ (by simp [constraintTexts])),
    clean_str (by decide) (h _ (by simp [constraintTexts])),
    clean_str (by decide) (h _ (by simp [constraintTexts])),
    clean_str (by decide) (h _ (by simp [constraintTexts])),
    clean_list (by decide) fun y hy => h y (by simp [constraintTexts, hy]),
    clean_str (by decide) (h _ (by simp [constraintTexts])),
    clean_str (by decide) (h _ (by simp [constraintTexts])),
    clean_flag (by decide),
    clean_flag (by decide),
    clean_flag (by decide),
    clean_flag (by decide),
    clean_str (by decide) (h _ (by simp [constraintTexts])),
    clean_flag (by decide)⟩

theorem get_constraint {x : Constraint} :
    getRecord constraintFields (constraint x) {} = some x := by
  rw [constraint, getRecord]
  rw [← List.append_nil (constraintMembers x)]
  delta constraintMembers
  simp only [List.append_assoc]
  rw [get_str (get := fun x => x.tableSchema) (set := fun y x => { x with tableSchema := y }) rfl rfl]
  rw [get_str (get := fun x => x.tableName) (set := fun y x => { x with tableName := y }) rfl rfl]
  rw [get_str (get := fun x => x.constraintName) (set := fun y x => { x with constraintName := y }) rfl rfl]
  rw [get_str (get := fun x => x.constraintType) (set := fun y x => { x with constraintType := y }) rfl rfl]
  rw [get_list (get := fun x => x.columns) (set := fun y x => { x with columns := y }) rfl rfl rfl fun _ _ => rfl]
  rw [get_str (get := fun x => x.referencesSchema) (set := fun y x => { x with referencesSchema := y }) rfl rfl]
  rw [get_str (get := fun x => x.referencesTable) (set := fun y x => { x with referencesTable := y }) rfl rfl]
  rw [get_list (get := fun x => x.referencesColumns) (set := fun y x => { x with referencesColumns := y }) rfl rfl rfl fun _ _ => rfl]
  rw [get_str (get := fun x => x.updateRule) (set := fun y x => { x with updateRule := y }) rfl rfl]
  rw [get_str (get := fun x => x.deleteRule) (set := fun y x => { x with deleteRule := y }) rfl rfl]
  rw [get_str (get := fun x => x.matchOption) (set := fun y x => { x with matchOption := y }) rfl rfl]
  rw [get_str (get := fun x => x.checkExpr) (set := fun y x => { x with checkExpr := y }) rfl rfl]
  rw [get_list (get := fun x => x.exclusionOperators) (set := fun y x => { x with exclusionOperators := y }) rfl rfl rfl fun _ _ => rfl]
  rw [get_str (get := fun x => x.exclusionIndexType) (set := fun y x => { x with exclusionIndexType := y }) rfl rfl]
  rw [get_str (get := fun x => x.exclusionPredicate) (set := fun y x => { x with exclusionPredicate := y }) rfl rfl]
  rw [get_flag (get := fun x => x.isDeferrable) (set := fun y x => { x with isDeferrable := y }) rfl rfl]
  rw [get_flag (get := fun x => x.isInitiallyDeferred) (set := fun y x => { x with isInitiallyDeferred := y }) rfl rfl]
  rw [get_flag (get := fun x => x.isClustered) (set := fun y x => { x with isClustered := y }) rfl rfl]
  rw [get_flag (get := fun x => x.isNotValid) (set := fun y x => { x with isNotValid := y }) rfl rfl]
  rw [get_str (get := fun x => x.comment) (set := fun y x => { x with comment := y }) rfl rfl]
  rw [get_flag (get := fun x => x.ignore) (set := fun y x => { x with ignore := y }) rfl rfl]
  rfl

theorem clean_index {x : Index} (h : ∀ s ∈ indexTexts x, Utf8 s) : Clean (index x) := by
  rw [index, Clean]
  delta indexMembers
  simp only [List.append_assoc, clean_append]
  exact ⟨clean_str (by decide) (h _ (by simp [indexTexts])),
    clean_str (by decide) (h _ (by simp [indexTexts])),
    clean_str (by decide) (h _ (by simp [indexTexts])),
    clean_str (by decide) (h _ (by simp [indexTexts])),
    clean_flag (by decide),
    clean_flag (by decide),
    clean_list (by decide) fun y hy => h y (by simp [indexTexts, hy]),
    clean_list (by decide) fun y hy => h y (by simp [indexTexts, hy]),
    clean_list (by decide) fun _ _ => trivial,
    clean_list (by decide) fun y hy => h y (by simp [indexTexts, hy]),
    clean_str (by decide) (h _ (by simp [indexTexts])),
    clean_str (by decide) (h _ (by simp [indexTexts])),
    clean_str (by decide) (h _ (by simp [indexTexts])),
    clean_flag (by decide)⟩

theorem get_index {x : Index} :
    getRecord indexFields (index x) {} = some x := by
  rw [index, getRecord]
  rw [← List.append_nil (indexMembers x)]
  delta indexMembers
  simp only [List.append_assoc]
  rw [get_str (get := fun x => x.tableSchema) (set := fun y x => { x with tableSchema := y }) rfl rfl]
  rw [get_str (get := fun x => x.tableName) (set := fun y x => { x with tableName := y }) rfl rfl]
  rw [get_str (get := fun x => x.indexName) (set := fun y x => { x with indexName := y }) rfl rfl]
  rw [get_str (get := fun x => x.indexType) (set := fun y x => { x with indexType := y }) rfl rfl]
  rw [get_flag (get := fun x => x.isViewIndex) (set := fun y x => { x with isViewIndex := y }) rfl rfl]
  rw [get_flag (get := fun x => x.isUnique) (set := fun y x => { x with isUnique := y }) rfl rfl]
  rw [get_list (get := fun x => x.columns) (set := fun y x => { x with columns := y }) rfl rfl rfl fun _ _ => rfl]
  rw [get_list (get := fun x => x.includeColumns) (set := fun y x => { x with includeColumns := y }) rfl rfl rfl fun _ _ => rfl]
  rw [get_list (get := fun x => x.descending) (set := fun y x => { x with descending := y }) rfl rfl rfl fun _ _ => rfl]
  rw [get_list (get := fun x => x.opclasses) (set := fun y x => { x with opclasses := y }) rfl rfl rfl fun _ _ => rfl]
  rw [get_str (get := fun x => x.predicate) (set := fun y x => { x with predicate := y }) rfl rfl]
  rw [get_str (get := fun x => x.sql) (set := fun y x => { x with sql := y }) rfl rfl]
  rw [get_str (get := fun x => x.comment) (set := fun y x => { x with comment := y }) rfl rfl]
  rw [get_flag (get := fun x => x.ignore) (set := fun y x => { x with ignore := y }) rfl rfl]
  rfl

theorem clean_trigger {x : Trigger} (h : ∀ s ∈ triggerTexts x, Utf8 s) : Clean (trigger x) := by
  rw [trigger, Clean]
  delta triggerMembers
  simp only [List.append_assoc, clean_append]
  exact ⟨clean_str (by decide) (h _ (by simp [triggerTexts])),
    clean_str (by decide) (h _ (by simp [triggerTexts])),
    clean_str (by decide) (h _ (by simp [triggerTexts])),
    clean_flag (by decide),
    clean_str (by decide) (h _ (by simp [triggerTexts])),
    clean_attrs (by decide) fun y hy => h y (by
      rw [triggerTexts]; exact List.mem_append_right _ hy),
    clean_str (by decide) (h _ (by simp [triggerTexts])),
    clean_flag (by decide)⟩

theorem get_trigger {x : Trigger} (h : ∀ m ∈ triggerMaps x, Sorted m) :
    getRecord triggerFields (trigger x) {} = some x := by
  rw [trigger, getRecord]
  rw [← List.append_nil (triggerMembers x)]
  delta triggerMembers
  simp only [List.append_assoc]
  rw [get_str (get := fun x => x.tableSchema) (set := fun y x => { x with tableSchema := y }) rfl rfl]
  rw [get_str (get := fun x => x.tableName) (set := fun y x => { x with tableName := y }) rfl rfl]
  rw [get_str (get := fun x => x.triggerName) (set := fun y x => { x with triggerName := y }) rfl rfl]
  rw [get_flag (get := fun x => x.isViewTrigger) (set := fun y x => { x with isViewTrigger := y }) rfl rfl]
  rw [get_str (get := fun x => x.sql) (set := fun y x => { x with sql := y }) rfl rfl]
  rw [get_attrs (get := fun x => x.attrs) (set := fun y x => { x with attrs := y }) rfl rfl rfl (h _ (by simp [triggerMaps]))]
  rw [get_str (get := fun x => x.comment) (set := fun y x => { x with comment := y }) rfl rfl]
  rw [get_flag (get := fun x => x.ignore) (set := fun y x => { x with ignore := y }) rfl rfl]
  rfl

theorem clean_view {x : View} (h : ∀ s ∈ viewTexts x, Utf8 s) : Clean (view x) := by
  rw [view, Clean]
  delta viewMembers
  simp only [List.append_assoc, clean_append]
  exact ⟨clean_str (by decide) (h _ (by simp [viewTexts])),
    clean_str (by decide) (h _ (by simp [viewTexts])),
    clean_flag (by decide),
    clean_str (by decide) (h _ (by simp [viewTexts])),
    clean_list (by decide) fun y hy => h y (by simp [viewTexts, hy]),
    clean_list (by decide) fun y hy => h y (by simp [viewTexts, hy]),
    clean_list (by decide) fun y hy => h y (by simp [viewTexts, hy]),
    clean_list (f := index) (by decide) fun y hy => clean_index (x := y) fun s hs => h s (by
      simp only [viewTexts, List.mem_append, List.mem_flatMap]; grind),
    clean_list (f := trigger) (by decide) fun y hy => clean_trigger (x := y) fun s hs => h s (by
      simp only [viewTexts, List.mem_append, List.mem_flatMap]; grind),
    clean_str (by decide) (h _ (by simp [viewTexts])),
    clean_flag (by decide)⟩

theorem get_view {x : View} (h : ∀ m ∈ viewMaps x, Sorted m) :
    getRecord viewFields (view x) {} = some x := by
  rw [view, getRecord]
  rw [← List.append_nil (viewMembers x)]
  delta viewMembers
  simp only [List.append_assoc]
  rw [get_str (get := fun x => x.viewSchema) (set := fun y x => { x with viewSchema := y }) rfl rfl]
  rw [get_str (get := fun x => x.viewName) (set := fun y x => { x with viewName := y }) rfl rfl]
  rw [get_flag (get := fun x => x.isMaterialized) (set := fun y x => { x with isMaterialized := y }) rfl rfl]
  rw [get_str (get := fun x => x.sql) (set := fun y x => { x with sql := y }) rfl rfl]
  rw [get_list (get := fun x => x.columns) (set := fun y x => { x with columns := y }) rfl rfl rfl fun _ _ => rfl]
  rw [get_list (get := fun x => x.columnTypes) (set := fun y x => { x with columnTypes := y }) rfl rfl rfl fun _ _ => rfl]
  rw [get_list (get := fun x => x.enumColumns) (set := fun y x => { x with enumColumns := y }) rfl rfl rfl fun _ _ => rfl]
  rw [get_list (get := fun x => x.indexes) (set := fun y x => { x with indexes := y }) rfl rfl rfl fun y hy => get_index]
  rw [get_list (get := fun x => x.triggers) (set := fun y x => { x with triggers := y }) rfl rfl rfl fun y hy => get_trigger fun m hm => h m (by
    simp only [viewMaps, List.mem_flatMap]; grind)]
  rw [get_str (get := fun x => x.comment) (set := fun y x => { x with comment := y }) rfl rfl]
  rw [get_flag (get := fun x => x.ignore) (set := fun y x => { x with ignore := y }) rfl rfl]
  rfl

theorem clean_table {x : Table} (h : ∀ s ∈ tableTexts x, Utf8 s) : Clean (table x) := by
  rw [table, Clean]
  delta tableMembers
  simp only [List.append_assoc, clean_append]
  exact ⟨clean_str (by decide) (h _ (by simp [tableTexts])),
    clean_str (by decide) (h _ (by simp [tableTexts])),
    clean_str (by decide) (h _ (by simp [tableTexts])),
    clean_flag (by decide),
    clean_list (f := column) (by decide) fun y hy => clean_column (x := y) fun s hs => h s (by
      simp only [tableTexts, List.mem_append, List.mem_flatMap]; grind),
    clean_list (f := constraint) (by decide) fun y hy => clean_constraint (x := y) fun s hs => h s (by
      simp only [tableTexts, List.mem_append, List.mem_flatMap]; grind),
    clean_list (f := index) (by decide) fun y hy => clean_index (x := y) fun s hs => h s (by
      simp only [tableTexts, List.mem_append, List.mem_flatMap]; grind),
    clean_list (f := trigger) (by decide) fun y hy => clean_trigger (x := y) fun s hs => h s (by
      simp only [tableTexts, List.mem_append, List.mem_flatMap]; grind),
    clean_str (by decide) (h _ (by simp [tableTexts])),
    clean_flag (by decide)⟩

theorem get_table {x : Table} (h : ∀ m ∈ tableMaps x, Sorted m) :
    getRecord tableFields (table x) {} = some x := by
  rw [table, getRecord]
  rw [← List.append_nil (tableMembers x)]
  delta tableMembers
  simp only [List.append_assoc]
  rw [get_str (get := fun x => x.tableSchema) (set := fun y x => { x with tableSchema := y }) rfl rfl]
  rw [get_str (get := fun x => x.tableName) (set := fun y x => { x with tableName := y }) rfl rfl]
  rw [get_str (get := fun x => x.sql) (set := fun y x => { x with sql := y }) rfl rfl]
  rw [get_flag (get := fun x => x.isVirtual) (set := fun y x => { x with isVirtual := y }) rfl rfl]
  rw [get_list (get := fun x => x.columns) (set := fun y x => { x with columns := y }) rfl rfl rfl fun y hy => get_column]
  rw [get_list (get := fun x => x.constraints) (set := fun y x => { x with constraints := y }) rfl rfl rfl fun y hy => get_constraint]
  rw [get_list (get := fun x => x.indexes) (set := fun y x => { x with indexes := y }) rfl rfl rfl fun y hy => get_index]
  rw [get_list (get := fun x => x.triggers) (set := fun y x => { x with triggers := y }) rfl rfl rfl fun y hy => get_trigger fun m hm => h m (by
    simp only [tableMaps, List.mem_flatMap]; grind)]
  rw [get_str (get := fun x => x.comment) (set := fun y x => { x with comment := y }) rfl rfl]
  rw [get_flag (get := fun x => x.ignore) (set := fun y x => { x with ignore := y }) rfl rfl]
  rfl

theorem clean_schema {x : Schema} (h : ∀ s ∈ schemaTexts x, Utf8 s) : Clean (schema x) := by
  rw [schema, Clean]
  delta schemaMembers
  simp only [List.append_assoc, clean_append]
  exact ⟨clean_str (by decide) (h _ (by simp [schemaTexts])),
    clean_list (f := table) (by decide) fun y hy => clean_table (x := y) fun s hs => h s (by
      simp only [schemaTexts, List.mem_append, List.mem_flatMap]; grind),
    clean_list (f := view) (by decide) fun y hy => clean_view (x := y) fun s hs => h s (by
      simp only [schemaTexts, List.mem_append, List.mem_flatMap]; grind),
    clean_flag (by decide),
    clean_list (f := routine) (by decide) fun y hy => clean_routine (x := y) fun s hs => h s (by
      simp only [schemaTexts, List.mem_append, List.mem_flatMap]; grind),
    clean_flag (by decide),
    clean_list (f := enum) (by decide) fun y hy => clean_enum (x := y) fun s hs => h s (by
      simp only [schemaTexts, List.mem_append, List.mem_flatMap]; grind),
    clean_flag (by decide),
    clean_list (f := domain) (by decide) fun y hy => clean_domain (x := y) fun s hs => h s (by
      simp only [schemaTexts, List.mem_append, List.mem_flatMap]; grind),
    clean_flag (by decide),
    clean_str (by decide) (h _ (by simp [schemaTexts])),
    clean_flag (by decide)⟩

theorem get_schema {x : Schema} (h : ∀ m ∈ schemaMaps x, Sorted m) :
    getRecord schemaFields (schema x) {} = some x := by
  rw [schema, getRecord]
  rw [← List.append_nil (schemaMembers x)]
  delta schemaMembers
  simp only [List.append_assoc]
  rw [get_str (get := fun x => x.schemaName) (set := fun y x => { x with schemaName := y }) rfl rfl]
  rw [get_list (get := fun x => x.tables) (set := fun y x => { x with tables := y }) rfl rfl rfl fun y hy => get_table fun m hm => h m (by
    simp only [schemaMaps, List.mem_append, List.mem_flatMap]; grind)]
  rw [get_list (get := fun x => x.views) (set := fun y x => { x with views := y }) rfl rfl rfl fun y hy => get_view fun m hm => h m (by
    simp only [schemaMaps, List.mem_append, List.mem_flatMap]; grind)]
  rw [get_flag (get := fun x => x.viewsValid) (set := fun y x => { x with viewsValid := y }) rfl rfl]
  rw [get_list (get := fun x => x.routines) (set := fun y x => { x with routines := y }) rfl rfl rfl fun y hy => get_routine fun m hm => h m (by
    simp only [schemaMaps, List.mem_append, List.mem_flatMap]; grind)]
  rw [get_flag (get := fun x => x.routinesValid) (set := fun y x => { x with routinesValid := y }) rfl rfl]
  rw [get_list (get := fun x => x.enums) (set := fun y x => { x with enums := y }) rfl rfl rfl fun y hy => get_enum]
  rw [get_flag (get := fun x => x.enumsValid) (set := fun y x => { x with enumsValid := y }) rfl rfl]
  rw [get_list (get := fun x => x.domains) (set := fun y x => { x with domains := y }) rfl rfl rfl fun y hy => get_domain]
  rw [get_flag (get := fun x => x.domainsValid) (set := fun y x => { x with domainsValid := y }) rfl rfl]
  rw [get_str (get := fun x => x.comment) (set := fun y x => { x with comment := y }) rfl rfl]
  rw [get_flag (get := fun x => x.ignore) (set := fun y x => { x with ignore := y }) rfl rfl]
  rfl

theorem clean_catalog {x : Catalog} (h : ∀ s ∈ catalogTexts x, Utf8 s) : Clean (catalog x) := by
  rw [catalog, Clean]
  delta catalogMembers
  simp only [List.append_assoc, clean_append]
  exact ⟨clean_str (by decide) (h _ (by simp [catalogTexts])),
    clean_list (by decide) fun _ _ => trivial,
    clean_str (by decide) (h _ (by simp [catalogTexts])),
    clean_str (by decide) (h _ (by simp [catalogTexts])),
    clean_str (by decide) (h _ (by simp [catalogTexts])),
    clean_flag (by decide),
    clean_list (by decide) fun y hy => h y (by simp [catalogTexts, hy]),
    clean_flag (by decide),
    clean_list (f := schema) (by decide) fun y hy => clean_schema (x := y) fun s hs => h s (by
      simp only [catalogTexts, List.mem_append, List.mem_flatMap]; grind)⟩

theorem get_catalog {x : Catalog} (h : ∀ m ∈ catalogMaps x, Sorted m) (d cur : Str) :
    getRecord catalogFields (catalog x) { dialect := d, currentSchema := cur } =
      some { x with
        dialect := if x.dialect = [] then d else x.dialect
        currentSchema := if x.currentSchema = [] then cur else x.currentSchema } := by
  rw [catalog, getRecord]
  rw [← List.append_nil (catalogMembers x)]
  delta catalogMembers
  simp only [List.append_assoc]
  rw [get_str_any (get := fun x => x.dialect) (set := fun y x => { x with dialect := y }) rfl]
  rw [get_list (get := fun x => x.versionNums) (set := fun y x => { x with versionNums := y }) rfl (by grind) (by grind) fun _ _ => rfl]
  rw [get_str (get := fun x => x.catalogName) (set := fun y x => { x with catalogName := y }) rfl (by grind)]
  rw [get_str_any (get := fun x => x.currentSchema) (set := fun y x => { x with currentSchema := y }) rfl]
  rw [get_str (get := fun x => x.defaultCollation) (set := fun y x => { x with defaultCollation := y }) rfl (by grind)]
  rw [get_flag (get := fun x => x.defaultCollationValid) (set := fun y x => { x with defaultCollationValid := y }) rfl (by grind)]
  rw [get_list (get := fun x => x.extensions) (set := fun y x => { x with extensions := y }) rfl (by grind) (by grind) fun _ _ => rfl]
  rw [get_flag (get := fun x => x.extensionsValid) (set := fun y x => { x with extensionsValid := y }) rfl (by grind)]
  rw [get_list (get := fun x => x.schemas) (set := fun y x => { x with schemas := y }) rfl (by grind) (by grind) fun y hy => get_schema fun m hm => h m (by
    simp only [catalogMaps, List.mem_flatMap]; grind)]
  by_cases hd : x.dialect = [] <;> by_cases hc : x.currentSchema = [] <;> simp [getMembers, hd, hc]

end Sqddl.CatalogJson
