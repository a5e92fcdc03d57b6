import Verif.Spec.CacheOps
import Verif.Lemmas.Cache

/-!
# The cache agrees with the lists of the catalog
-/

namespace Sqddl
open CacheSpec

section generic
variable {α K : Type} [DecidableEq K]

theorem PosMap.get_set (m : PosMap K) (k k' : K) (n : Nat) :
    (m.set k n).get k' = if k' = k then some n else m.get k' := by
  rw [PosMap.set, PosMap.get_append]
  by_cases h : k' = k
  · subst h; simp [PosMap.get]
  · have h' : ¬ k = k' := fun e => h e.symm
    simp [PosMap.get, h, h']

/-- The map has exactly the entries of the list. -/
def Same (m e : PosMap K) : Prop := ∀ k i, m.get k = some i ↔ (k, i) ∈ e

/-- The map and the entries are extended in the same way, or not at all. -/
def Ext (e e' m m' : PosMap K) : Prop :=
  (m' = m ∧ ∀ x, x ∈ e' ↔ x ∈ e) ∨
    ∃ k n, m' = m.set k n ∧ m.get k = none ∧ ∀ x, x ∈ e' ↔ x ∈ e ∨ x = (k, n)

theorem Ext.refl (e m : PosMap K) : Ext e e m m := .inl ⟨rfl, fun _ => Iff.rfl⟩

theorem Ext.of_eq {e e' m : PosMap K} (h : e' = e) : Ext e e' m m := h ▸ Ext.refl e m

theorem Same.ext {m e m' e' : PosMap K} (h : Same m e) (hx : Ext e e' m m') : Same m' e' := by
  intro k i
  rcases hx with ⟨rfl, he⟩ | ⟨k0, n, rfl, hn, he⟩
  · rw [he]; exact h k i
  · rw [he, PosMap.get_set]
    by_cases hk : k = k0
    · subst hk
      rw [if_pos rfl]
      constructor
      · intro e; cases e; exact .inr rfl
      · rintro (hm | hm)
        · rw [← h, hn] at hm; cases hm
        · cases hm; rfl
    · rw [if_neg hk, h]
      constructor
      · exact .inl
      · rintro (hm | hm)
        · exact hm
        · cases hm; exact absurd rfl hk

omit [DecidableEq K] in
theorem mem_flatMap_set {l : List α} {i : Nat} {a a' : α} {g : α → List K} (hi : l[i]? = some a) :
    ∃ r : List K, (∀ x, x ∈ l.flatMap g ↔ x ∈ g a ∨ x ∈ r) ∧
      ∀ x, x ∈ (l.set i a').flatMap g ↔ x ∈ g a' ∨ x ∈ r := by
  obtain ⟨hlt, rfl⟩ := List.getElem?_eq_some_iff.1 hi
  refine ⟨(l.take i ++ l.drop (i + 1)).flatMap g, fun x => ?_, fun x => ?_⟩
  · have : l = l.take i ++ l[i] :: l.drop (i + 1) := by simp
    conv => lhs; rw [this]
    simp only [List.flatMap_append, List.flatMap_cons, List.mem_append]
    grind
  · rw [List.set_eq_take_append_cons_drop, if_pos hlt]
    simp only [List.flatMap_append, List.flatMap_cons, List.mem_append]
    grind

theorem Ext.flatMap {β : Type} {l : List β} {i : Nat} {a a' : β} {g : β → PosMap K}
    {m m' : PosMap K} (hi : l[i]? = some a) (h : Ext (g a) (g a') m m') :
    Ext (l.flatMap g) ((l.set i a').flatMap g) m m' := by
  obtain ⟨r, h1, h2⟩ := mem_flatMap_set (g := g) (a' := a') hi
  rcases h with ⟨rfl, he⟩ | ⟨k, n, rfl, hn, he⟩
  · exact .inl ⟨rfl, fun x => by rw [h1, h2, he]⟩
  · exact .inr ⟨k, n, rfl, hn, fun x => by rw [h1, h2, he]; grind⟩

theorem Ext.left {e e' m m' f : PosMap K} (h : Ext e e' m m') : Ext (e ++ f) (e' ++ f) m m' := by
  rcases h with ⟨rfl, he⟩ | ⟨k, n, rfl, hn, he⟩
  · exact .inl ⟨rfl, fun x => by rw [List.mem_append, List.mem_append, he]⟩
  · exact .inr ⟨k, n, rfl, hn, fun x => by rw [List.mem_append, List.mem_append, he]; grind⟩

theorem Ext.right {e e' m m' f : PosMap K} (h : Ext e e' m m') : Ext (f ++ e) (f ++ e') m m' := by
  rcases h with ⟨rfl, he⟩ | ⟨k, n, rfl, hn, he⟩
  · exact .inl ⟨rfl, fun x => by rw [List.mem_append, List.mem_append, he]⟩
  · exact .inr ⟨k, n, rfl, hn, fun x => by rw [List.mem_append, List.mem_append, he]; grind⟩

omit [DecidableEq K] in
theorem positions_append (key : α → K) (xs : List α) (a : α) :
    positions key (xs ++ [a]) = positions key xs ++ [(key a, xs.length)] := by
  simp [positions, List.zipIdx_append]

omit [DecidableEq K] in
theorem mem_positions_set {key : α → K} {xs : List α} {i : Nat} {x a : α} (hi : xs[i]? = some x)
    (hk : key a = key x) (e : K × Nat) : e ∈ positions key (xs.set i a) ↔ e ∈ positions key xs := by
  rw [mem_positions, mem_positions]
  by_cases h : i = e.2
  · subst h
    obtain ⟨hlt, hx⟩ := List.getElem?_eq_some_iff.1 hi
    rw [List.getElem?_set_self hlt, hi]
    simp [hk]
  · rw [List.getElem?_set_ne h]

/-- The map knows the position of the object with the key, if there is one. -/
def Block (m : PosMap K) (key : α → K) (k : K) (xs : List α) : Prop :=
  ∀ i, m.get k = some i ↔ ∃ x, xs[i]? = some x ∧ key x = k

theorem slot_ok {m : PosMap K} {key : α → K} {k : K} {xs : List α} (h : Block m key k xs)
    {ign : α → Bool} (hig : ∀ x ∈ xs, ign x = false) :
    (m.get k = none ∧ slot ign xs (m.get k) = some none ∧ ∀ x ∈ xs, key x ≠ k) ∨
      ∃ i x, slot ign xs (m.get k) = some (some i) ∧ xs[i]? = some x ∧ key x = k ∧
        ∀ j y, xs[j]? = some y → key y = k → j = i := by
  cases hm : m.get k with
  | none =>
    refine .inl ⟨rfl, rfl, fun x hx hk => ?_⟩
    obtain ⟨i, hi⟩ := List.mem_iff_getElem?.1 hx
    have := (h i).2 ⟨x, hi, hk⟩
    rw [hm] at this; cases this
  | some i =>
    obtain ⟨x, hx, hk⟩ := (h i).1 hm
    refine .inr ⟨i, x, ?_, hx, hk, fun j y hy hky => ?_⟩
    · simp [slot, hx, hig x (List.mem_of_getElem? hx)]
    · have := (h j).2 ⟨y, hy, hky⟩
      rw [hm] at this
      exact (Option.some.inj this).symm

omit [DecidableEq K] in
theorem any_of_get {has : α → Bool} {xs : List α} {i : Nat} {x : α} (hx : xs[i]? = some x)
    (h : has x = true) : xs.any has = true :=
  List.any_eq_true.2 ⟨x, List.mem_of_getElem? hx, h⟩

omit [DecidableEq K] in
theorem map_eq_set {key : α → K} {k : K} {has : α → Bool} (hhas : ∀ x, has x = true ↔ key x = k)
    {xs : List α} {i : Nat} {x : α} (hx : xs[i]? = some x) (hk : key x = k)
    (hu : ∀ j y, xs[j]? = some y → key y = k → j = i) (a : α) :
    (xs.map fun x => if has x then a else x) = xs.set i a := by
  apply List.ext_getElem?
  intro j
  rw [List.getElem?_map]
  by_cases h : i = j
  · subst h
    obtain ⟨hlt, -⟩ := List.getElem?_eq_some_iff.1 hx
    rw [List.getElem?_set_self hlt, hx]
    simp [(hhas x).2 hk]
  · rw [List.getElem?_set_ne h]
    cases hj : xs[j]? with
    | none => rfl
    | some y =>
      have : has y = false := by
        rw [Bool.eq_false_iff]
        intro hy
        exact h (hu j y hj ((hhas y).1 hy)).symm
      simp [this]

/-- The three ways in which the functions change a list and its entries. -/
theorem ensure_ext {m : PosMap K} {key : α → K} {k : K} {xs : List α} (h : Block m key k xs)
    {ign : α → Bool} (hig : ∀ x ∈ xs, ign x = false) {has : α → Bool}
    (hhas : ∀ x, has x = true ↔ key x = k) {new : α} (hnew : key new = k) :
    (slot ign xs (m.get k) = some none ∧ ensure has new xs = xs ++ [new] ∧
        Ext (positions key xs) (positions key (ensure has new xs)) m (m.set k xs.length)) ∨
      ∃ i, slot ign xs (m.get k) = some (some i) ∧ ensure has new xs = xs := by
  rcases slot_ok h hig with ⟨hm, hs, hne⟩ | ⟨i, x, hs, hx, hk, -⟩
  · have : xs.any has = false := by
      rw [List.any_eq_false]
      exact fun x hx hh => hne x hx ((hhas x).1 hh)
    refine .inl ⟨hs, by simp [ensure, this], .inr ⟨k, xs.length, rfl, hm, fun e => ?_⟩⟩
    simp only [ensure, this, Bool.false_eq_true, if_false, positions_append, hnew]
    simp
  · exact .inr ⟨i, hs, by simp only [ensure, any_of_get hx ((hhas x).2 hk), if_true]⟩

@[inherit_doc ensure_ext]
theorem upsert_ext {m : PosMap K} {key : α → K} {k : K} {xs : List α} (h : Block m key k xs)
    {ign : α → Bool} (hig : ∀ x ∈ xs, ign x = false) {has : α → Bool}
    (hhas : ∀ x, has x = true ↔ key x = k) {new : α} (hnew : key new = k) :
    (slot ign xs (m.get k) = some none ∧ upsert has new xs = xs ++ [new] ∧
        (∀ x ∈ xs, key x ≠ k) ∧
        Ext (positions key xs) (positions key (upsert has new xs)) m (m.set k xs.length)) ∨
      ∃ i x, slot ign xs (m.get k) = some (some i) ∧ upsert has new xs = xs.set i new ∧
        xs[i]? = some x ∧ key x = k ∧
        Ext (positions key xs) (positions key (upsert has new xs)) m m := by
  rcases slot_ok h hig with ⟨hm, hs, hne⟩ | ⟨i, x, hs, hx, hk, hu⟩
  · have : xs.any has = false := by
      rw [List.any_eq_false]
      exact fun x hx hh => hne x hx ((hhas x).1 hh)
    refine .inl ⟨hs, by simp [upsert, this], hne, .inr ⟨k, xs.length, rfl, hm, fun e => ?_⟩⟩
    simp only [upsert, this, Bool.false_eq_true, if_false, positions_append, hnew]
    simp
  · have e : upsert has new xs = xs.set i new := by
      simp only [upsert, any_of_get hx ((hhas x).2 hk), if_true]
      exact map_eq_set hhas hx hk hu new
    exact .inr ⟨i, x, hs, e, hx, hk, .inl ⟨rfl, fun y => by
      rw [e]; exact mem_positions_set hx (hnew.trans hk.symm) y⟩⟩

theorem create_ok {m : PosMap K} {key : α → K} {k : K} {xs : List α} (h : Block m key k xs)
    {ign : α → Bool} (hig : ∀ x ∈ xs, ign x = false) {has : α → Bool}
    (hhas : ∀ x, has x = true ↔ key x = k) {new : α} (hnew : key new = k) :
    ∃ m' i, getOrCreateIn ign new k xs m = some (ensure has new xs, m', i) ∧
      Ext (positions key xs) (positions key (ensure has new xs)) m m' := by
  rcases ensure_ext h hig hhas hnew with ⟨hs, e, hx⟩ | ⟨i, hs, e⟩
  · exact ⟨_, xs.length, by simp [getOrCreateIn, hs, e], hx⟩
  · exact ⟨m, i, by simp [getOrCreateIn, hs, e], by rw [e]; exact Ext.refl _ _⟩

theorem update_ok {m : PosMap K} {key : α → K} {k : K} {xs : List α} (h : Block m key k xs)
    {ign : α → Bool} (hig : ∀ x ∈ xs, ign x = false) {has : α → Bool}
    (hhas : ∀ x, has x = true ↔ key x = k) {new : α} (hnew : key new = k) :
    ∃ m', addOrUpdateIn ign new k xs m = some (upsert has new xs, m') ∧
      Ext (positions key xs) (positions key (upsert has new xs)) m m' := by
  rcases upsert_ext h hig hhas hnew with ⟨hs, e, -, hx⟩ | ⟨i, x, hs, e, -, -, hx⟩
  · exact ⟨_, by simp [addOrUpdateIn, hs, e], hx⟩
  · exact ⟨m, by simp [addOrUpdateIn, hs, e], hx⟩

omit [DecidableEq K] in
theorem mem_ensure {has : α → Bool} {new x : α} {xs : List α} (h : x ∈ ensure has new xs) :
    x ∈ xs ∨ x = new := by
  unfold ensure at h
  split at h
  · exact .inl h
  · simpa using h

omit [DecidableEq K] in
theorem mem_upsert {has : α → Bool} {new x : α} {xs : List α} (h : x ∈ upsert has new xs) :
    x ∈ xs ∨ x = new := by
  unfold upsert at h
  split at h
  · obtain ⟨y, hy, rfl⟩ := List.mem_map.1 h
    by_cases hh : has y = true
    · simp [hh]
    · simp [hh, hy]
  · simpa using h

/-- A lookup gives what a search gives. -/
theorem get_gives {m : PosMap K} {key : α → K} {k : K} {xs : List α} (h : Block m key k xs)
    {ign : α → Bool} (hig : ∀ x ∈ xs, ign x = false) {has : α → Bool}
    (hhas : ∀ x, has x = true ↔ key x = k) : Gives (getAt ign xs (m.get k)) has xs := by
  unfold Gives
  rcases slot_ok h hig with ⟨hm, -, hne⟩ | ⟨i, x, -, hx, hk, hu⟩
  · have : xs.find? has = none := by
      rw [List.find?_eq_none]
      exact fun x hx hh => hne x hx ((hhas x).1 hh)
    rw [hm, this]; rfl
  · have hm := (h i).2 ⟨x, hx, hk⟩
    have hf : xs.find? has = some x := by
      cases hf : xs.find? has with
      | none => exact absurd ((hhas x).2 hk) (List.find?_eq_none.1 hf x (List.mem_of_getElem? hx))
      | some y =>
        have hy := (hhas y).1 (List.find?_some hf)
        obtain ⟨j, hj⟩ := List.mem_iff_getElem?.1 (List.mem_of_find?_eq_some hf)
        have := hu j y hj hy
        subst this
        rw [hj] at hx
        exact hx
    rw [hm, hf]
    simp [getAt, hx, hig x (List.mem_of_getElem? hx)]

end generic

/-! ## The entries that the maps of a cache should have -/

def enumE (s : Schema) := positions (fun x : Enum => (s.schemaName, x.enumName)) s.enums
def domainE (s : Schema) := positions (fun x : Domain => (s.schemaName, x.domainName)) s.domains
def routineE (s : Schema) :=
  positions (fun x : Routine => (s.schemaName, x.routineName, x.identityArguments)) s.routines
def viewE (s : Schema) := positions (fun x : View => (s.schemaName, x.viewName)) s.views
def tableE (s : Schema) := positions (fun x : Table => (s.schemaName, x.tableName)) s.tables
def columnE (t : Table) :=
  positions (fun x : Column => (t.tableSchema, t.tableName, x.columnName)) t.columns
def constraintE (t : Table) :=
  positions (fun x : Constraint => (t.tableSchema, t.tableName, x.constraintName)) t.constraints
def indexE (t : Table) :=
  positions (fun x : Index => (t.tableSchema, t.tableName, x.indexName)) t.indexes
def triggerE (t : Table) :=
  positions (fun x : Trigger => (t.tableSchema, t.tableName, x.triggerName)) t.triggers
def viewIndexE (v : View) :=
  positions (fun x : Index => (v.viewSchema, v.viewName, x.indexName)) v.indexes
def viewTriggerE (v : View) :=
  positions (fun x : Trigger => (v.viewSchema, v.viewName, x.triggerName)) v.triggers
def columnsE (s : Schema) := s.tables.flatMap columnE
def constraintsE (s : Schema) := s.tables.flatMap constraintE
def indexesE (s : Schema) := s.views.flatMap viewIndexE ++ s.tables.flatMap indexE
def triggersE (s : Schema) := s.views.flatMap viewTriggerE ++ s.tables.flatMap triggerE

/-- The cache agrees with the catalog. -/
structure Inv (cat : Catalog) (c : CatalogCache) : Prop where
  clean : ∀ s ∈ cat.schemas, SchemaClean c.isPostgres s
  schemas : Same c.schemas (positions (·.schemaName) cat.schemas)
  enums : Same c.enums (cat.schemas.flatMap enumE)
  domains : Same c.domains (cat.schemas.flatMap domainE)
  routines : Same c.routines (cat.schemas.flatMap routineE)
  views : Same c.views (cat.schemas.flatMap viewE)
  tables : Same c.tables (cat.schemas.flatMap tableE)
  columns : Same c.columns (cat.schemas.flatMap columnsE)
  constraints : Same c.constraints (cat.schemas.flatMap constraintsE)
  indexes : Same c.indexes (cat.schemas.flatMap indexesE)
  triggers : Same c.triggers (cat.schemas.flatMap triggersE)

/-- What the cache knows about a table. -/
structure TBlocks (c : CatalogCache) (t : Table) : Prop where
  columns : ∀ n, Block c.columns (fun x : Column => (t.tableSchema, t.tableName, x.columnName))
    (t.tableSchema, t.tableName, n) t.columns
  constraints : ∀ n, Block c.constraints
    (fun x : Constraint => (t.tableSchema, t.tableName, x.constraintName))
    (t.tableSchema, t.tableName, n) t.constraints
  indexes : ∀ n, Block c.indexes (fun x : Index => (t.tableSchema, t.tableName, x.indexName))
    (t.tableSchema, t.tableName, n) t.indexes
  triggers : ∀ n, Block c.triggers (fun x : Trigger => (t.tableSchema, t.tableName, x.triggerName))
    (t.tableSchema, t.tableName, n) t.triggers

/-- What the cache knows about a view. -/
structure VBlocks (c : CatalogCache) (v : View) : Prop where
  indexes : ∀ n, Block c.indexes (fun x : Index => (v.viewSchema, v.viewName, x.indexName))
    (v.viewSchema, v.viewName, n) v.indexes
  triggers : ∀ n, Block c.triggers (fun x : Trigger => (v.viewSchema, v.viewName, x.triggerName))
    (v.viewSchema, v.viewName, n) v.triggers

/-- What the cache knows about a schema. -/
structure SBlocks (c : CatalogCache) (s : Schema) : Prop where
  enums : ∀ n, Block c.enums (fun x : Enum => (s.schemaName, x.enumName)) (s.schemaName, n) s.enums
  domains : ∀ n, Block c.domains (fun x : Domain => (s.schemaName, x.domainName))
    (s.schemaName, n) s.domains
  routines : ∀ n a, Block c.routines
    (fun x : Routine => (s.schemaName, x.routineName, x.identityArguments))
    (s.schemaName, n, a) s.routines
  views : ∀ n, Block c.views (fun x : View => (s.schemaName, x.viewName)) (s.schemaName, n) s.views
  tables : ∀ n, Block c.tables (fun x : Table => (s.schemaName, x.tableName))
    (s.schemaName, n) s.tables
  ofViews : ∀ v ∈ s.views, VBlocks c v
  ofTables : ∀ t ∈ s.tables, TBlocks c t

section blocks
variable {α K : Type} [DecidableEq K]

theorem Same.block {m : PosMap K} {key : α → K} {xs : List α} (h : Same m (positions key xs))
    (k : K) : Block m key k xs := fun i => (h k i).trans mem_positions

/-- Names that are registered are distinct. -/
theorem block_unique {m : PosMap K} {key : α → K} {xs : List α} (h : ∀ k, Block m key k xs)
    {x y : α} (hx : x ∈ xs) (hy : y ∈ xs) (he : key x = key y) : x = y := by
  obtain ⟨i, hi⟩ := List.mem_iff_getElem?.1 hx
  obtain ⟨j, hj⟩ := List.mem_iff_getElem?.1 hy
  have h1 := (h (key x) i).2 ⟨x, hi, rfl⟩
  have h2 := (h (key x) j).2 ⟨y, hj, he.symm⟩
  rw [h1] at h2
  cases h2
  rw [hi] at hj
  exact Option.some.inj hj

theorem block_nodup {m : PosMap K} {key : α → K} {xs : List α} (h : ∀ x ∈ xs, Block m key (key x) xs) :
    (xs.map key).Nodup := by
  rw [List.Nodup, List.pairwise_iff_getElem]
  intro i j hi hj hij he
  rw [List.length_map] at hi hj
  rw [List.getElem_map, List.getElem_map] at he
  have h1 := (h xs[i] (List.getElem_mem hi) i).2 ⟨_, List.getElem?_eq_getElem hi, rfl⟩
  have h2 := (h xs[i] (List.getElem_mem hi) j).2 ⟨_, List.getElem?_eq_getElem hj, he.symm⟩
  rw [h1] at h2
  cases h2
  omega

omit [DecidableEq K] in
/-- Only the object with the name in the key contributes entries for the key. -/
theorem mem_flatMap_unique {β κ : Type} {f : β → PosMap K} {name : β → κ} (pre : K → κ) {l : List β}
    (hpre : ∀ s ∈ l, ∀ e ∈ f s, pre e.1 = name s)
    (hu : ∀ s ∈ l, ∀ s' ∈ l, name s = name s' → s = s') {s : β} (hs : s ∈ l) {k : K}
    (hk : pre k = name s) (i : Nat) : (k, i) ∈ l.flatMap f ↔ (k, i) ∈ f s := by
  rw [List.mem_flatMap]
  constructor
  · rintro ⟨s', hs', he⟩
    have := hu s hs s' hs' (hk.symm.trans (hpre s' hs' _ he))
    exact this ▸ he
  · exact fun h => ⟨s, hs, h⟩

omit [DecidableEq K] in
/-- Without an object with the name in the key there are no entries for the key. -/
theorem not_mem_flatMap {β κ : Type} {f : β → PosMap K} {name : β → κ} (pre : K → κ) {l : List β}
    (hpre : ∀ s ∈ l, ∀ e ∈ f s, pre e.1 = name s) {k : K}
    (hk : ∀ s ∈ l, pre k ≠ name s) (i : Nat) : (k, i) ∉ l.flatMap f := by
  rw [List.mem_flatMap]
  rintro ⟨s', hs', he⟩
  exact hk s' hs' (hpre s' hs' _ he)

omit [DecidableEq K] in
theorem positions_pre {κ : Type} {key : α → K} {xs : List α} {pre : K → κ} {n : κ}
    (h : ∀ x, pre (key x) = n) : ∀ e ∈ positions key xs, pre e.1 = n := by
  intro e he
  obtain ⟨x, -, hx⟩ := positions_key_mem he
  rw [← hx]; exact h x

end blocks

section inv
variable {cat : Catalog} {c : CatalogCache} (h : Inv cat c)
include h

theorem Inv.unique {s s' : Schema} (hs : s ∈ cat.schemas) (hs' : s' ∈ cat.schemas)
    (e : s.schemaName = s'.schemaName) : s = s' :=
  block_unique (fun k => h.schemas.block k) hs hs' e

/-- Schema level entries. -/
theorem Inv.level1 {K : Type} [DecidableEq K] {m : PosMap K} {f : Schema → PosMap K}
    (hm : Same m (cat.schemas.flatMap f)) (pre : K → Str)
    (hpre : ∀ s ∈ cat.schemas, ∀ e ∈ f s, pre e.1 = s.schemaName) {s : Schema} (hs : s ∈ cat.schemas) {k : K}
    (hk : pre k = s.schemaName) (i : Nat) : m.get k = some i ↔ (k, i) ∈ f s := by
  rw [hm]
  exact mem_flatMap_unique pre hpre (fun s hs s' hs' => h.unique hs hs') hs hk i

variable {s : Schema} (hs : s ∈ cat.schemas)
include hs

theorem Inv.tablesBlock (n : Str) : Block c.tables (fun x : Table => (s.schemaName, x.tableName))
    (s.schemaName, n) s.tables := fun i =>
  (h.level1 h.tables (fun k => k.1) (fun s _ => positions_pre (fun _ => rfl)) hs (k := (s.schemaName, n)) rfl i).trans mem_positions

theorem Inv.viewsBlock (n : Str) : Block c.views (fun x : View => (s.schemaName, x.viewName))
    (s.schemaName, n) s.views := fun i =>
  (h.level1 h.views (fun k => k.1) (fun s _ => positions_pre (fun _ => rfl)) hs (k := (s.schemaName, n)) rfl i).trans mem_positions

theorem Inv.table_unique {t t' : Table} (ht : t ∈ s.tables) (ht' : t' ∈ s.tables)
    (e : (s.schemaName, t.tableName) = (s.schemaName, t'.tableName)) : t = t' := by
  obtain ⟨i, hi⟩ := List.mem_iff_getElem?.1 ht
  obtain ⟨j, hj⟩ := List.mem_iff_getElem?.1 ht'
  have h1 := (h.tablesBlock hs t.tableName i).2 ⟨t, hi, rfl⟩
  have h2 := (h.tablesBlock hs t.tableName j).2 ⟨t', hj, e.symm⟩
  rw [h1] at h2
  cases h2
  rw [hi] at hj
  exact Option.some.inj hj

theorem Inv.view_unique {t t' : View} (ht : t ∈ s.views) (ht' : t' ∈ s.views)
    (e : (s.schemaName, t.viewName) = (s.schemaName, t'.viewName)) : t = t' := by
  obtain ⟨i, hi⟩ := List.mem_iff_getElem?.1 ht
  obtain ⟨j, hj⟩ := List.mem_iff_getElem?.1 ht'
  have h1 := (h.viewsBlock hs t.viewName i).2 ⟨t, hi, rfl⟩
  have h2 := (h.viewsBlock hs t.viewName j).2 ⟨t', hj, e.symm⟩
  rw [h1] at h2
  cases h2
  rw [hi] at hj
  exact Option.some.inj hj

/-- The first two components of a key. -/
def pre2 (k : Str × Str × Str) : Str × Str := (k.1, k.2.1)

/-- Entries of tables, if views contribute none. -/
theorem Inv.level2 {m : PosMap (Str × Str × Str)} {f : Schema → PosMap (Str × Str × Str)}
    (fv : View → PosMap (Str × Str × Str)) (ft : Table → PosMap (Str × Str × Str))
    (hf : ∀ s, f s = s.views.flatMap fv ++ s.tables.flatMap ft)
    (hv : ∀ v, ∀ e ∈ fv v, pre2 e.1 = (v.viewSchema, v.viewName))
    (ht : ∀ t, ∀ e ∈ ft t, pre2 e.1 = (t.tableSchema, t.tableName))
    (hm : Same m (cat.schemas.flatMap f)) (n : Str) (i : Nat) :
    (∀ t ∈ s.tables, (m.get (t.tableSchema, t.tableName, n) = some i ↔
      ((t.tableSchema, t.tableName, n), i) ∈ ft t)) ∧
    (∀ v ∈ s.views, (m.get (v.viewSchema, v.viewName, n) = some i ↔
      ((v.viewSchema, v.viewName, n), i) ∈ fv v)) := by
  have hpre : ∀ s ∈ cat.schemas, ∀ e ∈ f s, e.1.1 = s.schemaName := by
    intro s hs e he
    rw [hf, List.mem_append, List.mem_flatMap, List.mem_flatMap] at he
    rcases he with ⟨v, hv', he⟩ | ⟨t, ht', he⟩
    · exact (congrArg Prod.fst (hv v e he)).trans ((h.clean s hs).views v hv').1
    · exact (congrArg Prod.fst (ht t e he)).trans ((h.clean s hs).tables t ht').1
  have cs := h.clean s hs
  have hvs : ∀ v ∈ s.views, ∀ e ∈ fv v, pre2 e.1 = (s.schemaName, v.viewName) := fun v hv' e he => by
    rw [hv v e he, (cs.views v hv').1]
  have hts : ∀ t ∈ s.tables, ∀ e ∈ ft t, pre2 e.1 = (s.schemaName, t.tableName) := fun t ht' e he => by
    rw [ht t e he, (cs.tables t ht').1]
  constructor
  · intro t htm
    have e1 : t.tableSchema = s.schemaName := (cs.tables t htm).1
    rw [e1, h.level1 hm (fun k => k.1) hpre hs rfl i, hf, List.mem_append,
      mem_flatMap_unique pre2 hts (fun t ht t' ht' => h.table_unique hs ht ht') htm rfl i]
    constructor
    · rintro (he | he)
      · exact absurd he (not_mem_flatMap pre2 hvs (k := (s.schemaName, t.tableName, n)) (fun v hv' e =>
          cs.apart v hv' t htm (congrArg Prod.snd e).symm) i)
      · exact he
    · exact .inr
  · intro v hvm
    have e1 : v.viewSchema = s.schemaName := (cs.views v hvm).1
    rw [e1, h.level1 hm (fun k => k.1) hpre hs rfl i, hf, List.mem_append,
      mem_flatMap_unique pre2 hvs (fun t ht t' ht' => h.view_unique hs ht ht') hvm rfl i]
    constructor
    · rintro (he | he)
      · exact he
      · exact absurd he (not_mem_flatMap pre2 hts (k := (s.schemaName, v.viewName, n)) (fun t ht' e =>
          cs.apart v hvm t ht' (congrArg Prod.snd e)) i)
    · exact .inl

theorem Inv.blocks : SBlocks c s where
  enums n i :=
    (h.level1 h.enums (fun k => k.1) (fun s _ => positions_pre (fun _ => rfl)) hs (k := (s.schemaName, n)) rfl i).trans mem_positions
  domains n i :=
    (h.level1 h.domains (fun k => k.1) (fun s _ => positions_pre (fun _ => rfl)) hs (k := (s.schemaName, n)) rfl i).trans mem_positions
  routines n a i :=
    (h.level1 h.routines (fun k => k.1) (fun s _ => positions_pre (fun _ => rfl)) hs (k := (s.schemaName, n, a)) rfl i).trans mem_positions
  views := h.viewsBlock hs
  tables := h.tablesBlock hs
  ofViews v hv :=
    { indexes := fun n i => ((h.level2 hs viewIndexE indexE (fun _ => rfl)
        (fun _ => positions_pre fun _ => rfl) (fun _ => positions_pre fun _ => rfl)
        h.indexes n i).2 v hv).trans mem_positions
      triggers := fun n i => ((h.level2 hs viewTriggerE triggerE (fun _ => rfl)
        (fun _ => positions_pre fun _ => rfl) (fun _ => positions_pre fun _ => rfl)
        h.triggers n i).2 v hv).trans mem_positions }
  ofTables t ht :=
    { columns := fun n i => ((h.level2 hs (fun _ => []) columnE
        (fun _ => by simp [columnsE])
        (fun _ _ h => by cases h) (fun _ => positions_pre fun _ => rfl)
        h.columns n i).1 t ht).trans mem_positions
      constraints := fun n i => ((h.level2 hs (fun _ => []) constraintE
        (fun _ => by simp [constraintsE])
        (fun _ _ h => by cases h) (fun _ => positions_pre fun _ => rfl)
        h.constraints n i).1 t ht).trans mem_positions
      indexes := fun n i => ((h.level2 hs viewIndexE indexE (fun _ => rfl)
        (fun _ => positions_pre fun _ => rfl) (fun _ => positions_pre fun _ => rfl)
        h.indexes n i).1 t ht).trans mem_positions
      triggers := fun n i => ((h.level2 hs viewTriggerE triggerE (fun _ => rfl)
        (fun _ => positions_pre fun _ => rfl) (fun _ => positions_pre fun _ => rfl)
        h.triggers n i).1 t ht).trans mem_positions }

end inv

end Sqddl
