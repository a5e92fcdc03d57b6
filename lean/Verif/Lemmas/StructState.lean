import Verif.Lemmas.StructText
import Verif.Lemmas.CacheOps

/-!
# The state of the struct parser while it reads the struct of one table
-/

namespace Sqddl.Structs
open Go StructSpec ModifierSpec

/-! ## Positions by name -/

/-- The map gives the position of each name in a list of names. -/
def NBlock {K : Type} [DecidableEq K] (m : PosMap K) (key : Str → K) (names : List Str) : Prop :=
  ∀ n i, m.get (key n) = some i ↔ names[i]? = some n

section
variable {K : Type} [DecidableEq K] {m : PosMap K} {key : Str → K} {names : List Str}

theorem NBlock.none (h : NBlock m key names) {n : Str} (hn : n ∉ names) : m.get (key n) = none := by
  cases hg : m.get (key n) with
  | none => rfl
  | some i => exact absurd (List.mem_of_getElem? ((h n i).1 hg)) hn

theorem NBlock.set (h : NBlock m key names) (hinj : ∀ a b, key a = key b → a = b) {n : Str}
    (hn : n ∉ names) : NBlock (m.set (key n) names.length) key (names ++ [n]) := by
  intro n' i
  rw [PosMap.get_set]
  by_cases e : n' = n
  · subst e
    rw [if_pos rfl]
    constructor
    · intro hi
      simp at hi; subst hi
      simp
    · intro hi
      rw [List.getElem?_append] at hi
      split at hi
      · exact absurd (List.mem_of_getElem? hi) hn
      · rename_i hlt
        rw [List.getElem?_singleton] at hi
        split at hi
        · congr 1; omega
        · simp at hi
  · rw [if_neg (fun e' => e (hinj _ _ e'))]
    rw [h n' i, List.getElem?_append]
    split
    · rfl
    · rename_i hlt
      rw [List.getElem?_eq_none (by omega), List.getElem?_singleton]
      split
      · simp; exact fun e' => e e'.symm
      · simp

theorem NBlock.nodup (h : NBlock m key names) : names.Nodup := by
  rw [List.Nodup, List.pairwise_iff_getElem]
  intro i j hi hj hij e
  have h1 := (h names[i] i).2 (List.getElem?_eq_getElem hi)
  have h2 := (h names[i] j).2 (by rw [e]; exact List.getElem?_eq_getElem hj)
  rw [h1] at h2
  simp at h2
  omega

end

section
variable {K α : Type} [DecidableEq K] {m : PosMap K} {key : Str → K} {name : α → Str} {xs : List α}
variable {ign : α → Bool}

theorem slot_fresh (h : NBlock m key (xs.map name)) {n : Str} (hn : n ∉ xs.map name) :
    slot ign xs (m.get (key n)) = some none := by
  rw [h.none hn]; rfl

theorem slot_found (h : NBlock m key (xs.map name)) {i : Nat} {x : α} (hx : xs[i]? = some x)
    (hi : ign x = false) : slot ign xs (m.get (key (name x))) = some (some i) := by
  have : m.get (key (name x)) = some i := (h _ i).2 (by rw [List.getElem?_map, hx]; rfl)
  rw [this]
  simp [slot, hx, hi]

end

/-! ## The state -/

/-- The cache has the positions of the objects of one table. -/
structure TBlock (c : CatalogCache) (sn tn : Str) (cols ks types xs : List Str) : Prop where
  columns : NBlock c.columns (fun n => (sn, tn, n)) cols
  constraints : NBlock c.constraints (fun n => (sn, tn, n)) ks
  indexes : NBlock c.indexes (fun n => (sn, tn, n)) xs
  pkeys : ∀ i, c.pkeys.get (sn, tn) = some i → types[i]? = some PRIMARY_KEY

/-- The cache of one table. -/
def TableBlock (c : CatalogCache) (sn tn : Str) (cols : List Column) (ks : List Constraint)
    (xs : List Index) : Prop :=
  TBlock c sn tn (cols.map (·.columnName)) (ks.map (·.constraintName)) (ks.map (·.constraintType))
    (xs.map (·.indexName))

/-- Nothing else has changed in the cache. -/
structure Frame (sn tn : Str) (c0 c : CatalogCache) : Prop where
  schemas : c.schemas = c0.schemas
  tables : c.tables = c0.tables
  columns : ∀ s t n, (s, t) ≠ (sn, tn) → c.columns.get (s, t, n) = c0.columns.get (s, t, n)
  constraints : ∀ s t n, (s, t) ≠ (sn, tn) → c.constraints.get (s, t, n) = c0.constraints.get (s, t, n)
  indexes : ∀ s t n, (s, t) ≠ (sn, tn) → c.indexes.get (s, t, n) = c0.indexes.get (s, t, n)
  pkeys : ∀ s t, (s, t) ≠ (sn, tn) → c.pkeys.get (s, t) = c0.pkeys.get (s, t)

theorem Frame.refl (sn tn : Str) (c : CatalogCache) : Frame sn tn c c :=
  ⟨rfl, rfl, fun _ _ _ _ => rfl, fun _ _ _ _ => rfl, fun _ _ _ _ => rfl, fun _ _ _ => rfl⟩

/-- The state of the parser: the table has these columns, constraints and indexes, the cache knows
them, no error has been reported, and `ex` are the columns with an explicit type. -/
structure St (sn tn : Str) (c0 : CatalogCache) (ex : List (Str × Str × Str)) (cols : List Column)
    (ks : List Constraint) (xs : List Index) (p : Parser) : Prop where
  table : p.table =
    { tableSchema := sn, tableName := tn, columns := cols, constraints := ks, indexes := xs }
  ok : p.failed = false
  block : TableBlock p.cache sn tn cols ks xs
  colsLive : ∀ c ∈ cols, c.ignore = false
  ksLive : ∀ k ∈ ks, k.ignore = false
  xsLive : ∀ x ∈ xs, x.ignore = false
  frame : Frame sn tn c0 p.cache
  explicit : p.explicit = ex

section
variable {sn tn : Str} {c0 : CatalogCache} {ex : List (Str × Str × Str)} {cols : List Column}
variable {ks : List Constraint} {xs : List Index} {p : Parser}

theorem St.reportIf (h : St sn tn c0 ex cols ks xs p) {b : Bool} (hb : b = false) :
    St sn tn c0 ex cols ks xs (p.reportIf b) :=
  ⟨h.table, by simp [Parser.reportIf, h.ok, hb], h.block, h.colsLive, h.ksLive, h.xsLive, h.frame,
    h.explicit⟩

theorem St.locate (h : St sn tn c0 ex cols ks xs p) (n : Str) :
    St sn tn c0 ex cols ks xs (p.locate n) :=
  ⟨h.table, h.ok, h.block, h.colsLive, h.ksLive, h.xsLive, h.frame, h.explicit⟩

theorem modify_last {α : Type} (l : List α) (a : α) (f : α → α) :
    (l ++ [a]).modify l.length f = l ++ [f a] := by
  induction l with
  | nil => rfl
  | cons b l ih =>
    simp only [List.cons_append, List.length_cons, List.modify_succ_cons]
    rw [ih]

theorem forall_last {α : Type} {P : α → Prop} {l : List α} {a b : α} (h : ∀ x ∈ l ++ [a], P x) (hb : P b) :
    ∀ x ∈ l ++ [b], P x := by
  intro x hx
  rcases List.mem_append.1 hx with hx | hx
  · exact h x (by simp [hx])
  · rw [List.mem_singleton] at hx; subst hx; exact hb

theorem forall_snoc {α : Type} {P : α → Prop} {l : List α} {b : α} (h : ∀ x ∈ l, P x) (hb : P b) :
    ∀ x ∈ l ++ [b], P x := by
  intro x hx
  rcases List.mem_append.1 hx with hx | hx
  · exact h x hx
  · rw [List.mem_singleton] at hx; subst hx; exact hb

/-- The last column is changed. -/
theorem St.setColumn {c : Column} (h : St sn tn c0 ex (cols ++ [c]) ks xs p) {f : Column → Column}
    (hn : (f c).columnName = c.columnName) (hi : (f c).ignore = false) :
    St sn tn c0 ex (cols ++ [f c]) ks xs (p.setColumn cols.length f) := by
  refine ⟨?_, h.ok, ?_, forall_last h.colsLive hi, h.ksLive, h.xsLive, h.frame, h.explicit⟩
  · simp only [Parser.setColumn, h.table, modify_last]
  · have := h.block
    unfold TableBlock at this ⊢
    rw [List.map_append, List.map_singleton] at this ⊢
    rw [hn]
    exact this

/-- The last constraint is changed. -/
theorem St.setConstraint {k : Constraint} (h : St sn tn c0 ex cols (ks ++ [k]) xs p)
    {f : Constraint → Constraint} (hn : (f k).constraintName = k.constraintName)
    (ht : (f k).constraintType = k.constraintType) (hi : (f k).ignore = false) :
    St sn tn c0 ex cols (ks ++ [f k]) xs (p.setConstraint ks.length f) := by
  refine ⟨?_, h.ok, ?_, h.colsLive, forall_last h.ksLive hi, h.xsLive, h.frame, h.explicit⟩
  · simp only [Parser.setConstraint, h.table, modify_last]
  · have := h.block
    unfold TableBlock at this ⊢
    simp only [List.map_append, List.map_singleton] at this ⊢
    rw [hn, ht]
    exact this

/-- The last index is changed. -/
theorem St.setIndex {x : Index} (h : St sn tn c0 ex cols ks (xs ++ [x]) p) {f : Index → Index}
    (hn : (f x).indexName = x.indexName) (hi : (f x).ignore = false) :
    St sn tn c0 ex cols ks (xs ++ [f x]) (p.setIndex xs.length f) := by
  refine ⟨?_, h.ok, ?_, h.colsLive, h.ksLive, forall_last h.xsLive hi, h.frame, h.explicit⟩
  · simp only [Parser.setIndex, h.table, modify_last]
  · have := h.block
    unfold TableBlock at this ⊢
    rw [List.map_append, List.map_singleton] at this ⊢
    rw [hn]
    exact this

theorem key3_inj (sn tn : Str) (a b : Str) (h : (sn, tn, a) = (sn, tn, b)) : a = b := by
  simpa using h

theorem get_set_other {s t n : Str} (m : PosMap (Str × Str × Str)) {a : Str} {i : Nat}
    (h : (s, t) ≠ (sn, tn)) : (m.set (sn, tn, a) i).get (s, t, n) = m.get (s, t, n) := by
  rw [PosMap.get_set, if_neg]
  intro e
  simp only [Prod.mk.injEq] at e
  exact h (by rw [e.1, e.2.1])

/-- A constraint as it is created. -/
def newKey (sn tn n type : Str) (columns : List Str) : Constraint :=
  { tableSchema := sn, tableName := tn, constraintName := n, constraintType := type, columns := columns }

/-- A new column. -/
theorem St.newColumn (h : St sn tn c0 ex cols ks xs p) {n ty : Str}
    (hn : n ∉ cols.map (·.columnName)) :
    ∃ t' c', p.cache.getOrCreateColumn p.table n ty = some (t', c', cols.length) ∧
      St sn tn c0 ex (cols ++ [{ tableSchema := sn, tableName := tn, columnName := n, columnType := ty }])
        ks xs { p with table := t', cache := c' } := by
  have hs := slot_fresh (ign := fun x : Column => x.ignore) h.block.columns hn
  refine ⟨{ tableSchema := sn, tableName := tn, columns := cols ++ [{ tableSchema := sn, tableName := tn, columnName := n, columnType := ty }],
             constraints := ks, indexes := xs },
    { p.cache with columns := p.cache.columns.set (sn, tn, n) cols.length }, ?_, ?_⟩
  · unfold CatalogCache.getOrCreateColumn getOrCreateIn
    rw [h.table]
    dsimp only
    rw [hs]
    rfl
  · refine ⟨rfl, h.ok, ?_, forall_snoc h.colsLive rfl, h.ksLive, h.xsLive, ?_, h.explicit⟩
    · have hb := h.block
      refine ⟨?_, hb.constraints, hb.indexes, hb.pkeys⟩
      have := hb.columns.set (key3_inj sn tn) hn
      rw [List.length_map] at this
      rw [List.map_append]
      exact this
    · exact ⟨h.frame.schemas, h.frame.tables, fun s t n hne => (get_set_other _ hne).trans (h.frame.columns s t n hne),
        h.frame.constraints, h.frame.indexes, h.frame.pkeys⟩

/-- The column that was created last. -/
theorem St.lastColumn {c : Column} (h : St sn tn c0 ex (cols ++ [c]) ks xs p) (ty : Str) :
    p.cache.getOrCreateColumn p.table c.columnName ty = some (p.table, p.cache, cols.length) := by
  have hs := slot_found (ign := fun x : Column => x.ignore) h.block.columns
    (i := cols.length) (x := c) (by simp) (h.colsLive c (by simp))
  unfold CatalogCache.getOrCreateColumn getOrCreateIn
  rw [h.table]
  dsimp only
  rw [hs]
  rfl

/-- A new constraint. -/
theorem St.newConstraint (h : St sn tn c0 ex cols ks xs p) {n type : Str} {columns : List Str}
    (hn : n ∉ ks.map (·.constraintName)) :
    ∃ t' c', p.cache.getOrCreateConstraint p.table n type columns = some (t', c', ks.length) ∧
      St sn tn c0 ex cols (ks ++ [newKey sn tn n type columns]) xs { p with table := t', cache := c' } := by
  have hs := slot_fresh (ign := fun x : Constraint => x.ignore) h.block.constraints hn
  refine ⟨{ tableSchema := sn, tableName := tn, columns := cols, constraints := ks ++ [newKey sn tn n type columns], indexes := xs },
    { p.cache.registerKey p.table type with constraints := p.cache.constraints.set (sn, tn, n) ks.length }, ?_, ?_⟩
  · unfold CatalogCache.getOrCreateConstraint
    rw [h.table]
    dsimp only
    rw [hs]
    rfl
  · have hb := h.block
    have hk : NBlock (p.cache.constraints.set (sn, tn, n) ks.length) (fun n => (sn, tn, n))
        ((ks ++ [newKey sn tn n type columns]).map (·.constraintName)) := by
      have := hb.constraints.set (key3_inj sn tn) hn
      rw [List.length_map] at this
      rw [List.map_append]
      exact this
    have hpk : ∀ (m : PosMap (Str × Str)), (∀ i, m.get (sn, tn) = some i →
        (ks.map (·.constraintType))[i]? = some PRIMARY_KEY) → ∀ i, m.get (sn, tn) = some i →
        ((ks ++ [newKey sn tn n type columns]).map (·.constraintType))[i]? = some PRIMARY_KEY := by
      intro m hm i hi
      have := hm i hi
      rw [List.map_append, List.getElem?_append_left]
      · exact this
      · exact (List.getElem?_eq_some_iff.1 this).1
    refine ⟨rfl, h.ok, ?_, h.colsLive, forall_snoc h.ksLive rfl, h.xsLive, ?_, h.explicit⟩
    · dsimp only
      rw [h.table]
      unfold CatalogCache.registerKey
      by_cases h1 : type = PRIMARY_KEY
      · rw [if_pos h1]
        refine ⟨hb.columns, hk, hb.indexes, ?_⟩
        intro i hi
        dsimp only at hi
        rw [PosMap.get_set, if_pos rfl] at hi
        simp only [Option.some.injEq] at hi
        subst hi
        simp [h1, newKey]
      · rw [if_neg h1]
        split
        · exact ⟨hb.columns, hk, hb.indexes, hpk _ hb.pkeys⟩
        · exact ⟨hb.columns, hk, hb.indexes, hpk _ hb.pkeys⟩
    · have hfr := h.frame
      have hk2 : ∀ s t m, (s, t) ≠ (sn, tn) →
          (p.cache.constraints.set (sn, tn, n) ks.length).get (s, t, m) = c0.constraints.get (s, t, m) :=
        fun s t m hne => (get_set_other _ hne).trans (hfr.constraints s t m hne)
      dsimp only
      rw [h.table]
      unfold CatalogCache.registerKey
      split
      · refine ⟨hfr.schemas, hfr.tables, hfr.columns, hk2, hfr.indexes, fun s t hne => ?_⟩
        dsimp only
        rw [PosMap.get_set, if_neg hne]
        exact hfr.pkeys s t hne
      · split
        · exact ⟨hfr.schemas, hfr.tables, hfr.columns, hk2, hfr.indexes, hfr.pkeys⟩
        · exact ⟨hfr.schemas, hfr.tables, hfr.columns, hk2, hfr.indexes, hfr.pkeys⟩

/-- A new index. -/
theorem St.newIndex (h : St sn tn c0 ex cols ks xs p) {n : Str} {columns : List Str}
    (hn : n ∉ xs.map (·.indexName)) :
    ∃ t' c', p.cache.getOrCreateIndex p.table n columns = some (t', c', xs.length) ∧
      St sn tn c0 ex cols ks (xs ++ [{ tableSchema := sn, tableName := tn, indexName := n, columns }])
        { p with table := t', cache := c' } := by
  have hs := slot_fresh (ign := fun x : Index => x.ignore) h.block.indexes hn
  refine ⟨{ tableSchema := sn, tableName := tn, columns := cols, constraints := ks,
             indexes := xs ++ [{ tableSchema := sn, tableName := tn, indexName := n, columns }] },
    { p.cache with indexes := p.cache.indexes.set (sn, tn, n) xs.length }, ?_, ?_⟩
  · unfold CatalogCache.getOrCreateIndex getOrCreateIn
    rw [h.table]
    dsimp only
    rw [hs]
    rfl
  · refine ⟨rfl, h.ok, ?_, h.colsLive, h.ksLive, forall_snoc h.xsLive rfl, ?_, h.explicit⟩
    · have hb := h.block
      refine ⟨hb.columns, hb.constraints, ?_, hb.pkeys⟩
      have := hb.indexes.set (key3_inj sn tn) hn
      rw [List.length_map] at this
      rw [List.map_append]
      exact this
    · exact ⟨h.frame.schemas, h.frame.tables, h.frame.columns, h.frame.constraints,
        fun s t n hne => (get_set_other _ hne).trans (h.frame.indexes s t n hne), h.frame.pkeys⟩

end

end Sqddl.Structs
