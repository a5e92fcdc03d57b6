import Verif.Spec.Catalog

/-!
# Lookups in the cache of a well-formed catalog
-/

namespace Sqddl
open CatalogSpec

theorem PosMap.get_append {K : Type} [DecidableEq K] (a b : PosMap K) (k : K) :
    PosMap.get (a ++ b) k = (PosMap.get b k).or (PosMap.get a k) := by
  simp only [PosMap.get, List.reverse_append, List.find?_append]
  cases h : List.find? (fun e => e.1 == k) b.reverse <;> simp

theorem PosMap.get_eq_none {K : Type} [DecidableEq K] (a : PosMap K) (k : K) :
    PosMap.get a k = none ↔ ∀ e ∈ a, e.1 ≠ k := by
  simp [PosMap.get]

theorem PosMap.get_mem {K : Type} [DecidableEq K] {a : PosMap K} {k : K} {i : Nat}
    (h : PosMap.get a k = some i) : (k, i) ∈ a := by
  simp only [PosMap.get, Option.map_eq_some_iff] at h
  obtain ⟨e, he, rfl⟩ := h
  have h1 := List.find?_some he
  have h2 := List.mem_of_find?_eq_some he
  simp at h1 h2
  subst h1
  exact h2

/-- If at most the block of `x` has entries for the key, only this block counts. -/
theorem PosMap.get_flatMap {α K : Type} [DecidableEq K] (f : α → PosMap K) (k : K) (x : α) :
    ∀ xs : List α, x ∈ xs → (∀ y ∈ xs, y ≠ x → ∀ e ∈ f y, e.1 ≠ k) →
      PosMap.get (xs.flatMap f) k = PosMap.get (f x) k
  | [], h, _ => by cases h
  | y :: ys, h, hne => by
    rw [List.flatMap_cons, PosMap.get_append]
    by_cases hx : x ∈ ys
    · rw [PosMap.get_flatMap f k x ys hx (fun z hz => hne z (List.mem_cons_of_mem _ hz))]
      by_cases hy : y = x
      · subst hy; cases PosMap.get (f y) k <;> rfl
      · rw [(PosMap.get_eq_none (f y) k).2 (hne y List.mem_cons_self hy)]
        cases PosMap.get (f x) k <;> rfl
    · have hy : y = x := by
        rcases List.mem_cons.1 h with h | h
        · exact h.symm
        · exact absurd h hx
      subst hy
      have : PosMap.get (ys.flatMap f) k = none := by
        rw [PosMap.get_eq_none]
        intro e he
        obtain ⟨z, hz, hez⟩ := List.mem_flatMap.1 he
        exact hne z (List.mem_cons_of_mem _ hz) (fun h => hx (h ▸ hz)) e hez
      rw [this]; rfl

theorem mem_positions {α K : Type} {key : α → K} {xs : List α} {e : K × Nat} :
    e ∈ positions key xs ↔ ∃ x, xs[e.2]? = some x ∧ key x = e.1 := by
  simp only [positions, List.mem_map, Prod.exists]
  constructor
  · rintro ⟨a, b, h, rfl⟩
    exact ⟨a, List.mem_zipIdx_iff_getElem?.1 h, rfl⟩
  · rintro ⟨x, h, hk⟩
    refine ⟨x, e.2, List.mem_zipIdx_iff_getElem?.2 h, ?_⟩
    rw [hk]

theorem positions_key_mem {α K : Type} {key : α → K} {xs : List α} {e : K × Nat}
    (h : e ∈ positions key xs) : ∃ x ∈ xs, key x = e.1 := by
  obtain ⟨x, hx, hk⟩ := mem_positions.1 h
  exact ⟨x, List.mem_of_getElem? hx, hk⟩

theorem mem_positions_of_mem {α K : Type} {key : α → K} {xs : List α} {x : α} (h : x ∈ xs) :
    ∃ i, (key x, i) ∈ positions key xs := by
  obtain ⟨i, hi⟩ := List.mem_iff_getElem?.1 h
  exact ⟨i, mem_positions.2 ⟨x, hi, rfl⟩⟩

theorem nodup_map_inj {α β : Type} {f : α → β} {xs : List α} (h : (xs.map f).Nodup) {x y : α}
    (hx : x ∈ xs) (hy : y ∈ xs) (e : f x = f y) : x = y := by
  induction xs with
  | nil => cases hx
  | cons a as ih =>
    rw [List.map_cons, List.nodup_cons] at h
    rcases List.mem_cons.1 hx with h1 | h1 <;> rcases List.mem_cons.1 hy with h2 | h2
    · rw [h1, h2]
    · exact absurd (List.mem_map.2 ⟨y, h2, by rw [← e, h1]⟩) h.1
    · exact absurd (List.mem_map.2 ⟨x, h1, by rw [e, h2]⟩) h.1
    · exact ih h.2 h1 h2

theorem nodup_of_map {α β : Type} {f : α → β} {xs : List α} (h : (xs.map f).Nodup) : xs.Nodup := by
  induction xs with
  | nil => exact List.nodup_nil
  | cons a as ih =>
    rw [List.map_cons, List.nodup_cons] at h
    exact List.nodup_cons.2 ⟨fun hm => h.1 (List.mem_map.2 ⟨a, hm, rfl⟩), ih h.2⟩

theorem filterMap_congr' {α β : Type} {f g : α → Option β} {xs : List α}
    (h : ∀ x ∈ xs, f x = g x) : xs.filterMap f = xs.filterMap g := by
  induction xs with
  | nil => rfl
  | cons a as ih =>
    simp only [List.filterMap_cons, h a List.mem_cons_self,
      ih (fun x hx => h x (List.mem_cons_of_mem _ hx))]

theorem flatMap_single {α β : Type} {g : α → List β} {x : α} :
    ∀ {xs : List α}, xs.Nodup → x ∈ xs → (∀ y ∈ xs, y ≠ x → g y = []) → xs.flatMap g = g x
  | [], _, h, _ => by cases h
  | y :: ys, hn, h, hne => by
    rw [List.nodup_cons] at hn
    rw [List.flatMap_cons]
    rcases List.mem_cons.1 h with h1 | h1
    · subst h1
      have : ys.flatMap g = [] := by
        rw [List.flatMap_eq_nil_iff]
        exact fun z hz => hne z (List.mem_cons_of_mem _ hz) (fun h => hn.1 (h ▸ hz))
      rw [this, List.append_nil]
    · rw [hne y List.mem_cons_self (fun h => hn.1 (h ▸ h1)),
        flatMap_single hn.2 h1 (fun z hz => hne z (List.mem_cons_of_mem _ hz)), List.nil_append]

/-- A lookup through positions that all point at objects of the key. -/
theorem getAt_iff {α K : Type} [DecidableEq K] {key : α → K} {ignored : α → Bool} {xs : List α}
    {m : PosMap K} {k : K}
    (hm : ∀ i, (k, i) ∈ m ↔ ∃ x, xs[i]? = some x ∧ key x = k)
    (huniq : ∀ x ∈ xs, ∀ y ∈ xs, key x = k → key y = k → x = y) (x : α) :
    (getAt ignored xs (m.get k)).toOption = some x ↔ x ∈ xs ∧ key x = k ∧ ignored x = false := by
  cases h : m.get k with
  | none =>
    simp only [getAt, Got.toOption]
    constructor
    · intro h; cases h
    · rintro ⟨hx, hk, -⟩
      obtain ⟨i, hi⟩ := List.mem_iff_getElem?.1 hx
      exact absurd rfl ((PosMap.get_eq_none m k).1 h (k, i) ((hm i).2 ⟨x, hi, hk⟩))
  | some i =>
    obtain ⟨y, hy, hk⟩ := (hm i).1 (PosMap.get_mem h)
    simp only [getAt, hy]
    have hymem := List.mem_of_getElem? hy
    constructor
    · intro hx
      split at hx
      · cases hx
      · rename_i hig
        cases hx
        exact ⟨hymem, hk, by simpa using hig⟩
    · rintro ⟨hx, hkx, hig⟩
      have := huniq x hx y hymem hkx hk
      subst this
      simp [hig, Got.toOption]

/-- The same lookup never panics. -/
theorem getAt_no_panic {α K : Type} [DecidableEq K] {key : α → K} {ignored : α → Bool}
    {xs : List α} {m : PosMap K} {k : K}
    (hm : ∀ i, (k, i) ∈ m ↔ ∃ x, xs[i]? = some x ∧ key x = k) :
    getAt ignored xs (m.get k) ≠ .panic := by
  cases h : m.get k with
  | none => simp [getAt]
  | some i =>
    obtain ⟨y, hy, hk⟩ := (hm i).1 (PosMap.get_mem h)
    simp only [getAt, hy]
    split <;> simp

section lookups
variable {c : Catalog} (hc : Ok c)
include hc

theorem getSchema_iff (n : Str) (x : Schema) :
    ((newCatalogCache c).getSchema c n).toOption = some x ↔
      x ∈ c.schemas ∧ x.schemaName = n ∧ x.ignore = false := by
  refine getAt_iff (key := (·.schemaName)) (fun i => ?_) (fun x hx y hy h1 h2 => ?_) x
  · exact mem_positions
  · exact nodup_map_inj hc.schemas hx hy (h1.trans h2.symm)

omit hc in
theorem getSchema_no_panic (n : Str) : (newCatalogCache c).getSchema c n ≠ .panic :=
  getAt_no_panic (key := (·.schemaName)) (ignored := Schema.ignore) (fun _ => mem_positions)

theorem schema_eq {s s' : Schema} (hs : s ∈ c.schemas) (hs' : s' ∈ c.schemas)
    (h : s.schemaName = s'.schemaName) : s = s' :=
  nodup_map_inj hc.schemas hs hs' h

/-- An entry of a map whose keys begin with the schema name comes from the block of the schema. -/
theorem mem_flatMap_schema {K : Type} (f : Schema → List K) (p : K → Str)
    (hf : ∀ s, ∀ e ∈ f s, p e = s.schemaName) {s : Schema} (hs : s ∈ c.schemas) (e : K)
    (he : p e = s.schemaName) : e ∈ c.schemas.flatMap f ↔ e ∈ f s := by
  rw [List.mem_flatMap]
  constructor
  · rintro ⟨s', hs', hes⟩
    have := schema_eq hc hs hs' (he.symm.trans (hf s' e hes))
    exact this ▸ hes
  · intro h; exact ⟨s, hs, h⟩

variable {s : Schema} (hs : s ∈ c.schemas)
include hs

theorem getTable_pos (n : Str) : ∀ i, ((s.schemaName, n), i) ∈ (newCatalogCache c).tables ↔
      ∃ x, s.tables[i]? = some x ∧ (s.schemaName, x.tableName) = (s.schemaName, n) := by
  intro i
  refine Iff.trans (mem_flatMap_schema hc (K := (Str × Str) × Nat) _ (fun e => e.1.1) ?_ hs
    ((s.schemaName, n), i) rfl) ?_
  · intro s' e he
    obtain ⟨x, -, hx⟩ := positions_key_mem he
    rw [← hx]
  · exact mem_positions

theorem getTable_iff (n : Str) (x : Table) :
    ((newCatalogCache c).getTable s n).toOption = some x ↔
      x ∈ s.tables ∧ x.tableName = n ∧ x.ignore = false := by
  have := getAt_iff (ignored := Table.ignore) (getTable_pos hc hs n) (fun x hx y hy h1 h2 =>
    nodup_map_inj (hc.ok s hs).tables hx hy (by simpa using h1.trans h2.symm)) x
  simpa [CatalogCache.getTable] using this

theorem getTable_no_panic (n : Str) :
    (newCatalogCache c).getTable s n ≠ .panic :=
  getAt_no_panic (ignored := Table.ignore) (getTable_pos hc hs n)

theorem table_eq {t t' : Table} (ht : t ∈ s.tables) (ht' : t' ∈ s.tables)
    (h : t.tableName = t'.tableName) : t = t' :=
  nodup_map_inj (hc.ok s hs).tables ht ht' h

variable {t : Table} (ht : t ∈ s.tables)
include ht

/-- The same for keys that begin with schema and table name. -/
theorem mem_flatMap_table {K : Type} (f : Str → Table → List K) (p : K → Str × Str)
    (hf : ∀ s t, ∀ e ∈ f s t, p e = (s, t.tableName)) (e : K)
    (he : p e = (s.schemaName, t.tableName)) :
    e ∈ (c.schemas.flatMap fun s => s.tables.flatMap (f s.schemaName)) ↔
      e ∈ f s.schemaName t := by
  rw [mem_flatMap_schema hc (fun s => s.tables.flatMap (f s.schemaName)) (fun e => (p e).1)
    (fun s' e' he' => by
      obtain ⟨t', -, h⟩ := List.mem_flatMap.1 he'
      simp [hf _ _ _ h]) hs e (by simp [he])]
  rw [List.mem_flatMap]
  constructor
  · rintro ⟨t', ht', h⟩
    have h2 := hf _ _ _ h
    rw [he] at h2
    have := table_eq hc hs ht ht' (by simpa using h2)
    exact this ▸ h
  · intro h; exact ⟨t, ht, h⟩

theorem getColumn_pos (n : Str) : ∀ i, ((t.tableSchema, t.tableName, n), i) ∈ (newCatalogCache c).columns ↔
      ∃ x, t.columns[i]? = some x ∧ (t.tableSchema, t.tableName, x.columnName) =
        (t.tableSchema, t.tableName, n) := by
  intro i
  rw [(hc.ok s hs).schemaName t ht]
  refine Iff.trans (mem_flatMap_table hc hs ht (K := (Str × Str × Str) × Nat)
    (fun s t => positions (fun (c : Column) => (s, t.tableName, c.columnName)) t.columns)
    (fun e => (e.1.1, e.1.2.1)) ?_ ((s.schemaName, t.tableName, n), i) rfl) ?_
  · intro s' t' e he
    obtain ⟨x, -, hx⟩ := positions_key_mem he
    rw [← hx]
  · exact mem_positions

theorem getColumn_iff (n : Str) (x : Column) :
    ((newCatalogCache c).getColumn t n).toOption = some x ↔
      x ∈ t.columns ∧ x.columnName = n ∧ x.ignore = false := by
  have := getAt_iff (ignored := Column.ignore) (getColumn_pos hc hs ht n) (fun x hx y hy h1 h2 =>
    nodup_map_inj ((hc.ok s hs).ok t ht).columns hx hy (by simpa using h1.trans h2.symm)) x
  simpa [CatalogCache.getColumn] using this

theorem getColumn_no_panic (n : Str) :
    (newCatalogCache c).getColumn t n ≠ .panic :=
  getAt_no_panic (ignored := Column.ignore) (getColumn_pos hc hs ht n)

theorem getIndex_pos (n : Str) : ∀ i, ((t.tableSchema, t.tableName, n), i) ∈ (newCatalogCache c).indexes ↔
      ∃ x, t.indexes[i]? = some x ∧ (t.tableSchema, t.tableName, x.indexName) =
        (t.tableSchema, t.tableName, n) := by
  intro i
  rw [(hc.ok s hs).schemaName t ht]
  refine Iff.trans (mem_flatMap_schema hc (K := (Str × Str × Str) × Nat) _
    (fun e => e.1.1) ?_ hs ((s.schemaName, t.tableName, n), i) rfl) ?_
  · intro s' e he
    rcases List.mem_append.1 he with he | he
    · obtain ⟨v, -, h⟩ := List.mem_flatMap.1 he
      split at h
      · obtain ⟨x, -, hx⟩ := positions_key_mem h
        rw [← hx]
      · cases h
    · obtain ⟨v, -, h⟩ := List.mem_flatMap.1 he
      obtain ⟨x, -, hx⟩ := positions_key_mem h
      rw [← hx]
  · rw [List.mem_append]
    constructor
    · rintro (h | h)
      · obtain ⟨v, hv, h⟩ := List.mem_flatMap.1 h
        split at h
        · obtain ⟨x, -, hx⟩ := positions_key_mem h
          simp at hx
          exact absurd hx.1 ((hc.ok s hs).views v hv t ht)
        · cases h
      · obtain ⟨t', ht', h⟩ := List.mem_flatMap.1 h
        obtain ⟨x, -, hx⟩ := positions_key_mem h
        simp at hx
        have := table_eq hc hs ht ht' hx.1.symm
        subst this
        exact mem_positions.1 h
    · intro h
      exact .inr (List.mem_flatMap.2 ⟨t, ht, mem_positions.2 h⟩)

theorem getIndex_iff (n : Str) (x : Index) :
    ((newCatalogCache c).getIndex t n).toOption = some x ↔
      x ∈ t.indexes ∧ x.indexName = n ∧ x.ignore = false := by
  have := getAt_iff (ignored := Index.ignore) (getIndex_pos hc hs ht n) (fun x hx y hy h1 h2 =>
    nodup_map_inj ((hc.ok s hs).ok t ht).indexes hx hy (by simpa using h1.trans h2.symm)) x
  simpa [CatalogCache.getIndex] using this

theorem getIndex_no_panic (n : Str) :
    (newCatalogCache c).getIndex t n ≠ .panic :=
  getAt_no_panic (ignored := Index.ignore) (getIndex_pos hc hs ht n)

theorem getConstraint_pos (n : Str) : ∀ i, ((t.tableSchema, t.tableName, n), i) ∈ (newCatalogCache c).constraints ↔
      ∃ x, t.constraints[i]? = some x ∧ (t.tableSchema, t.tableName, x.constraintName) =
        (t.tableSchema, t.tableName, n) := by
  have hok := (hc.ok s hs).ok t ht
  intro i
  rw [(hc.ok s hs).schemaName t ht]
  refine Iff.trans (mem_flatMap_table hc hs ht (K := (Str × Str × Str) × Nat)
    constraintPositions
    (fun e => (e.1.1, e.1.2.1)) ?_ ((s.schemaName, t.tableName, n), i) rfl) ?_
  · intro s' t' e he
    simp only [constraintPositions, List.mem_filterMap] at he
    obtain ⟨a, -, ha⟩ := he
    split at ha
    · cases ha
    · cases ha; rfl
  · simp only [constraintPositions, List.mem_filterMap, Prod.exists, List.mem_zipIdx_iff_getElem?]
    constructor
    · rintro ⟨a, b, hab, h⟩
      split at h
      · cases h
      · cases h; exact ⟨a, hab, rfl⟩
    · rintro ⟨a, ha, h⟩
      simp at h
      subst h
      exact ⟨a, i, ha, by rw [if_neg (hok.named a (List.mem_of_getElem? ha))]⟩

theorem getConstraint_iff (n : Str) (x : Constraint) :
    ((newCatalogCache c).getConstraint t n).toOption = some x ↔
      x ∈ t.constraints ∧ x.constraintName = n ∧ x.ignore = false := by
  have hok := (hc.ok s hs).ok t ht
  have := getAt_iff (ignored := Constraint.ignore) (getConstraint_pos hc hs ht n) (fun x hx y hy h1 h2 =>
    nodup_map_inj hok.constraints hx hy (by simpa using h1.trans h2.symm)) x
  simpa [CatalogCache.getConstraint] using this

theorem getConstraint_no_panic (n : Str) :
    (newCatalogCache c).getConstraint t n ≠ .panic :=
  getAt_no_panic (ignored := Constraint.ignore) (getConstraint_pos hc hs ht n)

/-- `GetForeignKeys` gives the foreign keys that are not ignored, in order. -/
theorem getForeignKeys_eq :
    (newCatalogCache c).getForeignKeys t =
      t.constraints.filter fun k => decide (k.constraintType = FOREIGN_KEY) && !k.ignore := by
  have hnodup : c.schemas.Nodup := nodup_of_map hc.schemas
  have hnodupT : s.tables.Nodup := nodup_of_map (hc.ok s hs).tables
  have h1 : (newCatalogCache c).fkeys.filter (fun e => e.1 == (t.tableSchema, t.tableName)) =
      fkeyPositions s.schemaName t := by
    rw [(hc.ok s hs).schemaName t ht]
    show (c.schemas.flatMap fun s => s.tables.flatMap (fkeyPositions s.schemaName)).filter _ = _
    rw [List.filter_flatMap, flatMap_single hnodup hs, List.filter_flatMap,
      flatMap_single hnodupT ht]
    · rw [List.filter_eq_self]
      intro e he
      simp only [fkeyPositions, List.mem_filterMap] at he
      obtain ⟨a, -, ha⟩ := he
      split at ha
      · cases ha; simp
      · cases ha
    · intro t' ht' hne
      rw [List.filter_eq_nil_iff]
      intro e he
      simp only [fkeyPositions, List.mem_filterMap] at he
      obtain ⟨a, -, ha⟩ := he
      split at ha
      · cases ha
        simp
        exact fun h => hne (table_eq hc hs ht' ht h)
      · cases ha
    · intro s' hs' hne
      rw [List.filter_eq_nil_iff]
      intro e he
      obtain ⟨t', -, he⟩ := List.mem_flatMap.1 he
      simp only [fkeyPositions, List.mem_filterMap] at he
      obtain ⟨a, -, ha⟩ := he
      split at ha
      · cases ha
        simp
        exact fun h => absurd (schema_eq hc hs' hs h) hne
      · cases ha
  rw [CatalogCache.getForeignKeys, h1]
  have h2 : (fkeyPositions s.schemaName t).filterMap (fun e => t.constraints[e.2]?) =
      t.constraints.filter fun k => decide (k.constraintType = FOREIGN_KEY) := by
    rw [fkeyPositions, List.filterMap_filterMap]
    have h3 : ∀ e ∈ t.constraints.zipIdx,
        ((if e.1.constraintType = FOREIGN_KEY then some ((s.schemaName, t.tableName), e.2)
          else none).bind fun e => t.constraints[e.2]?) =
        (fun e : Constraint × Nat =>
          (if e.1.constraintType = FOREIGN_KEY then some e.1 else none)) e := by
      intro e he
      have := List.mem_zipIdx_iff_getElem?.1 he
      dsimp only
      split
      · simp [this]
      · rfl
    rw [filterMap_congr' h3]
    conv => rhs; rw [← List.zipIdx_map_fst 0 t.constraints]
    rw [List.filter_map, ← List.filterMap_eq_filter, List.map_filterMap]
    congr 1
    funext e
    simp only [Function.comp, Option.guard]
    split <;> simp_all
  rw [h2, List.filter_filter]
  congr 1
  funext k
  rw [Bool.and_comm]

theorem getPrimaryKey_mem {x : Constraint}
    (h : ((newCatalogCache c).getPrimaryKey t).toOption = some x) :
    x ∈ t.constraints ∧ x.constraintType = PRIMARY_KEY ∧ x.ignore = false := by
  rw [CatalogCache.getPrimaryKey] at h
  cases hg : (newCatalogCache c).pkeys.get (t.tableSchema, t.tableName) with
  | none => rw [hg] at h; cases h
  | some i =>
    rw [hg] at h
    have hmem := PosMap.get_mem hg
    rw [(hc.ok s hs).schemaName t ht] at hmem
    have := (mem_flatMap_table hc hs ht (K := (Str × Str) × Nat) pkeyPositions (fun e => e.1)
      (fun s' t' e he => by
        simp only [pkeyPositions, List.mem_filterMap] at he
        obtain ⟨a, -, ha⟩ := he
        split at ha
        · cases ha; rfl
        · cases ha) ((s.schemaName, t.tableName), i) rfl).1 hmem
    simp only [pkeyPositions, List.mem_filterMap, Prod.exists, List.mem_zipIdx_iff_getElem?] at this
    obtain ⟨a, b, hab, h'⟩ := this
    split at h'
    · cases h'
      simp only [getAt, hab] at h
      split at h
      · cases h
      · cases h
        exact ⟨List.mem_of_getElem? hab, by assumption, by simp_all⟩
    · cases h'

/-- A table with a primary key that is not ignored, and no other primary key. -/
theorem getPrimaryKey_eq {x : Constraint} (hx : x ∈ t.constraints)
    (hp : x.constraintType = PRIMARY_KEY) (hi : x.ignore = false)
    (huniq : ∀ y ∈ t.constraints, y.constraintType = PRIMARY_KEY → y = x) :
    ((newCatalogCache c).getPrimaryKey t).toOption = some x := by
  have hmem : ∀ i, ((t.tableSchema, t.tableName), i) ∈ (newCatalogCache c).pkeys ↔
      ∃ y, t.constraints[i]? = some y ∧ y.constraintType = PRIMARY_KEY := by
    intro i
    rw [(hc.ok s hs).schemaName t ht]
    refine Iff.trans (mem_flatMap_table hc hs ht (K := (Str × Str) × Nat) pkeyPositions
      (fun e => e.1)
      (fun s' t' e he => by
        simp only [pkeyPositions, List.mem_filterMap] at he
        obtain ⟨a, -, ha⟩ := he
        split at ha
        · cases ha; rfl
        · cases ha) ((s.schemaName, t.tableName), i) rfl) ?_
    simp only [pkeyPositions, List.mem_filterMap, Prod.exists, List.mem_zipIdx_iff_getElem?]
    constructor
    · rintro ⟨a, b, hab, h⟩
      split at h
      · cases h; exact ⟨a, hab, by assumption⟩
      · cases h
    · rintro ⟨a, ha, h⟩
      exact ⟨a, i, ha, by rw [if_pos h]⟩
  rw [CatalogCache.getPrimaryKey]
  cases hg : (newCatalogCache c).pkeys.get (t.tableSchema, t.tableName) with
  | none =>
    obtain ⟨i, hi⟩ := List.mem_iff_getElem?.1 hx
    exact absurd rfl ((PosMap.get_eq_none _ _).1 hg _ ((hmem i).2 ⟨x, hi, hp⟩))
  | some i =>
    obtain ⟨y, hy, hyp⟩ := (hmem i).1 (PosMap.get_mem hg)
    have := huniq y (List.mem_of_getElem? hy) hyp
    subst this
    simp [getAt, hy, hi, Got.toOption]

end lookups

end Sqddl
