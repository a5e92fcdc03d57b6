import Verif.Lemmas.StructChecks

/-!
# Reading all structs
-/

namespace Sqddl.Structs
open Go StructSpec ModifierSpec

/-- `t'` is what is read from the struct of `t`. -/
def ReadOf (d : Dialect) (cat : Catalog) (t t' : Table) : Prop :=
  ∃ l : List (Column × Column), l.map (·.1) = t.columns ∧
    (∀ q ∈ l, ColAfter d cat t (ordKeys t) q.1 q.2) ∧ (∀ q ∈ l, q.2.ignore = false) ∧
    t' = { tableSchema := t.tableSchema, tableName := t.tableName, columns := l.map (·.2),
           constraints := (ordKeys t).map (keyImage t.tableSchema t.tableName cat.currentSchema),
           indexes := (ordIndexes t).map (idxImage t.tableSchema t.tableName) }

/-! ## The name of the table -/

theorem structTable_eq {isFloat : Str → Bool} {cat : Catalog} {t : Table} {d d' : Dialect}
    (hf : TableFits isFloat d cat t) :
    structTable cat.currentSchema (flatStruct (structOf d' cat t)) = (t.tableSchema, t.tableName) := by
  have hdot : '.' ∉ t.tableName := goName_not hf.name (by decide)
  have hs := hf.schema
  unfold structTable
  show ((if ((cutDot (if tableTag cat.currentSchema t ≠ [] then tableTag cat.currentSchema t else
      toLower (toUpper (noSpace t.tableName)))).getD ([], (if tableTag cat.currentSchema t ≠ [] then
        tableTag cat.currentSchema t else toLower (toUpper (noSpace t.tableName))))).1 = [] then cat.currentSchema else
      ((cutDot (if tableTag cat.currentSchema t ≠ [] then tableTag cat.currentSchema t else
      toLower (toUpper (noSpace t.tableName)))).getD ([], (if tableTag cat.currentSchema t ≠ [] then
        tableTag cat.currentSchema t else toLower (toUpper (noSpace t.tableName))))).1),
      ((cutDot (if tableTag cat.currentSchema t ≠ [] then tableTag cat.currentSchema t else
      toLower (toUpper (noSpace t.tableName)))).getD ([], (if tableTag cat.currentSchema t ≠ [] then
        tableTag cat.currentSchema t else toLower (toUpper (noSpace t.tableName))))).2) = _
  by_cases h0 : t.tableSchema = []
  · rw [if_pos h0] at hs
    have hname : (if tableTag cat.currentSchema t ≠ [] then tableTag cat.currentSchema t else
        toLower (toUpper (noSpace t.tableName))) = t.tableName := by
      by_cases hq : needsQuoting t.tableName = true
      · have ht : tableTag cat.currentSchema t = t.tableName := by
          unfold tableTag
          rw [if_pos (Or.inr hq), if_neg (fun h => h h0)]
        rw [ht, if_pos hf.name.1]
      · have ht : tableTag cat.currentSchema t = [] := by
          unfold tableTag
          rw [if_neg (fun h => h.elim (fun h => h.1 h0) hq)]
        rw [ht, if_neg (fun h => h rfl)]
        exact toLower_toUpper hf.name (by simpa using hq)
    rw [hname, cutDot_none hdot, hs, h0]
    rfl
  · rw [if_neg h0] at hs
    have hsdot : '.' ∉ t.tableSchema := fun h => hs _ h (by simp)
    by_cases hq : (t.tableSchema ≠ [] ∧ t.tableSchema ≠ cat.currentSchema) ∨ needsQuoting t.tableName = true
    · have hname : (if tableTag cat.currentSchema t ≠ [] then tableTag cat.currentSchema t else
          toLower (toUpper (noSpace t.tableName))) = t.tableSchema ++ '.' :: t.tableName := by
        have : tableTag cat.currentSchema t = t.tableSchema ++ '.' :: t.tableName := by
          unfold tableTag
          rw [if_pos hq, if_pos h0]
          show (t.tableSchema ++ ['.']) ++ t.tableName = _
          rw [List.append_assoc]; rfl
        rw [this, if_pos (by simp)]
      rw [hname, cutDot_append hsdot]
      show (if t.tableSchema = [] then _ else t.tableSchema, t.tableName) = _
      rw [if_neg h0]
    · have hname : (if tableTag cat.currentSchema t ≠ [] then tableTag cat.currentSchema t else
          toLower (toUpper (noSpace t.tableName))) = t.tableName := by
        unfold tableTag
        rw [if_neg hq, if_neg (fun h => h rfl)]
        rw [not_or] at hq
        exact toLower_toUpper hf.name (by simpa using hq.2)
      rw [hname, cutDot_none hdot]
      show (if ([] : Str) = [] then cat.currentSchema else [], t.tableName) = _
      rw [if_pos rfl]
      rw [not_or] at hq
      rw [Classical.not_not.1 fun h => hq.1 ⟨h0, fun e => h e.symm⟩]

/-! ## The state between two structs -/

/-- The schemas that have been read, each with the tables of the database and those read. -/
abbrev Groups := List (Str × List (Table × Table))

/-- The schema read. -/
def schemaOf (g : Str × List (Table × Table)) : Schema := { schemaName := g.1, tables := g.2.map (·.2) }

/-- What the cache knows, and what has been read. -/
structure WS (d : Dialect) (cat : Catalog) (l : Groups) (w : Writer) : Prop where
  catalog : w.cat = { emptyLike cat with schemas := l.map schemaOf }
  ok : w.failed = false
  schemas : NBlock w.cache.schemas id (l.map (·.1))
  tables : ∀ g ∈ l, NBlock w.cache.tables (fun n => (g.1, n)) (g.2.map (·.1.tableName))
  noTables : ∀ sn, sn ∉ l.map (·.1) → NBlock w.cache.tables (fun n => (sn, n)) []
  blocks : ∀ g ∈ l, ∀ q ∈ g.2, TableBlock w.cache g.1 q.1.tableName q.2.columns q.2.constraints q.2.indexes
  noBlocks : ∀ sn tn, (∀ g ∈ l, g.1 = sn → ∀ q ∈ g.2, q.1.tableName ≠ tn) → TableBlock w.cache sn tn [] [] []
  explicit : ∀ e ∈ w.explicit, ∃ g ∈ l, g.1 = e.1 ∧ ∃ q ∈ g.2, q.1.tableName = e.2.1
  read : ∀ g ∈ l, ∀ q ∈ g.2, q.1.tableSchema = g.1 ∧ ReadOf d cat q.1 q.2

theorem Frame.block {sn tn s n : Str} {c0 c : CatalogCache} (h : Frame sn tn c0 c) (hne : (s, n) ≠ (sn, tn))
    {cols ks types xs : List Str} (hb : TBlock c0 s n cols ks types xs) : TBlock c s n cols ks types xs := by
  refine ⟨?_, ?_, ?_, ?_⟩
  · intro m i; rw [h.columns s n m hne]; exact hb.columns m i
  · intro m i; rw [h.constraints s n m hne]; exact hb.constraints m i
  · intro m i; rw [h.indexes s n m hne]; exact hb.indexes m i
  · intro i; rw [h.pkeys s n hne]; exact hb.pkeys i

/-- The blocks do not depend on the maps of schemas and tables. -/
theorem TBlock.congr {s n : Str} {c c' : CatalogCache} {cols ks types xs : List Str}
    (h : TBlock c s n cols ks types xs) (e1 : c'.columns = c.columns) (e2 : c'.constraints = c.constraints)
    (e3 : c'.indexes = c.indexes) (e4 : c'.pkeys = c.pkeys) : TBlock c' s n cols ks types xs := by
  refine ⟨?_, ?_, ?_, ?_⟩
  · rw [e1]; exact h.columns
  · rw [e2]; exact h.constraints
  · rw [e3]; exact h.indexes
  · rw [e4]; exact h.pkeys

section
variable {isFloat : Str → Bool} {cat : Catalog} {t : Table} {dn : Str}
variable (hf : TableFits isFloat (dialectOf dn) cat t) (hok : CatalogSpec.TableOk t)
variable (href : ∀ k ∈ keysOf t, k.constraintType = FOREIGN_KEY → RefNames cat k)

include hf hok href in
/-- One struct is read into a new table. -/
theorem newTable_ok {c : CatalogCache} {located : List (Str × Str)} {ex : List (Str × Str × Str)}
    (hb : TableBlock c t.tableSchema t.tableName [] [] [])
    (hex : ∀ e ∈ ex, (e.1, e.2.1) ≠ (t.tableSchema, t.tableName)) :
    ∃ p', parseTable isFloat dn (flatStruct (structOf (dialectOf dn) cat t)).fields
        { table := { tableSchema := t.tableSchema, tableName := t.tableName }, cache := c, failed := false,
          located, explicit := ex } = some p' ∧
      ReadOf (dialectOf dn) cat t p'.table ∧ p'.failed = false ∧
      TableBlock p'.cache t.tableSchema t.tableName p'.table.columns p'.table.constraints p'.table.indexes ∧
      Frame t.tableSchema t.tableName c p'.cache ∧
      ∀ e ∈ p'.explicit, e ∈ ex ∨ (e.1 = t.tableSchema ∧ e.2.1 = t.tableName) := by
  obtain ⟨p', e, l, h1, h2, h3⟩ := parseTable_ok (dn := dn) hf hok href (sn := t.tableSchema) (c0 := c) (ex0 := ex)
    (p := { table := { tableSchema := t.tableSchema, tableName := t.tableName }, cache := c, failed := false,
            located, explicit := ex })
    ⟨rfl, rfl, hb, by simp, by simp, by simp, Frame.refl _ _ _, rfl⟩ hex
  refine ⟨p', e, ⟨l, h1, h2, ?_, h3.table⟩, h3.ok, ?_, h3.frame, ?_⟩
  · intro q hq
    exact h3.colsLive _ (List.mem_map_of_mem hq)
  · have := h3.block
    rw [h3.table]
    exact this
  · rw [h3.explicit]
    intro e he
    rcases List.mem_append.1 he with he | he
    · exact Or.inl he
    · obtain ⟨c', -, hc'⟩ := List.mem_flatMap.1 he
      unfold colEx at hc'
      split at hc'
      · simp at hc'
      · rw [List.mem_singleton] at hc'
        rw [hc']
        exact Or.inr ⟨rfl, rfl⟩

theorem struct_fields : (flatStruct (structOf (dialectOf dn) cat t)).fields.isEmpty = false := rfl

include hf hok href in
/-- The first table of a schema. -/
theorem firstTable_ok {l : Groups} {w : Writer} (hw : WS (dialectOf dn) cat l w)
    (hn : t.tableSchema ∉ l.map (·.1)) :
    ∃ w' t', writeStruct isFloat dn w (flatStruct (structOf (dialectOf dn) cat t)) = some w' ∧
      WS (dialectOf dn) cat (l ++ [(t.tableSchema, [(t, t')])]) w' := by
  have habs : ∀ g ∈ l, g.1 = t.tableSchema → ∀ q ∈ g.2, q.1.tableName ≠ t.tableName :=
    fun g hg e => absurd (List.mem_map.2 ⟨g, hg, e⟩) hn
  let c1 : CatalogCache := { w.cache with
    schemas := w.cache.schemas.set t.tableSchema l.length
    tables := w.cache.tables.set (t.tableSchema, t.tableName) 0 }
  obtain ⟨p', e, hr, hfa, hb, hfr, hx⟩ := newTable_ok (dn := dn) hf hok href (c := c1) (located := w.located)
    (ex := w.explicit) ((hw.noBlocks _ _ habs).congr rfl rfl rfl rfl) (by
      intro e he eq
      obtain ⟨g, hg, e1, q, hq, e2⟩ := hw.explicit e he
      simp only [Prod.mk.injEq] at eq
      exact habs g hg (e1.trans eq.1) q hq (e2.trans eq.2))
  have hcur : w.cat.currentSchema = cat.currentSchema := by rw [hw.catalog]; rfl
  have hsch : w.cat.schemas = l.map schemaOf := by rw [hw.catalog]
  have hslot : slot (fun s : Schema => s.ignore) (l.map schemaOf) (w.cache.schemas.get t.tableSchema) = some none := by
    have : (l.map schemaOf).map (fun s : Schema => s.schemaName) = l.map (·.1) := by
      rw [List.map_map]; rfl
    refine slot_fresh (key := id) (name := fun s : Schema => s.schemaName) ?_ ?_
    · rw [this]; exact hw.schemas
    · rw [this]; exact hn
  have hslot2 : slot (fun s : Table => s.ignore) ([] : List Table) (w.cache.tables.get (t.tableSchema, t.tableName)) = some none :=
    slot_fresh (key := fun n => (t.tableSchema, n)) (name := fun s : Table => s.tableName)
      (hw.noTables _ hn) (by simp)
  refine ⟨{ cat := { emptyLike cat with schemas := (l ++ [(t.tableSchema, [(t, p'.table)])]).map schemaOf },
            cache := p'.cache, failed := p'.failed, located := p'.located, explicit := p'.explicit },
    p'.table, ?_, ?_⟩
  · unfold writeStruct
    rw [struct_fields, if_neg (by decide), hcur, structTable_eq hf]
    unfold CatalogCache.getOrCreateSchema getOrCreateIn
    rw [hsch]
    dsimp only
    rw [hslot]
    dsimp only [Option.map_some, Option.elim_none, Option.bind_some]
    rw [show (l.map schemaOf ++ [({ schemaName := t.tableSchema } : Schema)])[(l.map schemaOf).length]? =
      some { schemaName := t.tableSchema } from by simp, Option.bind_some]
    unfold CatalogCache.getOrCreateTable getOrCreateIn
    dsimp only
    rw [hslot2]
    dsimp only [Option.map_some, Option.elim_none, Option.bind_some]
    rw [show ([] ++ [({ tableSchema := t.tableSchema, tableName := t.tableName } : Table)])[([] : List Table).length]? =
      some { tableSchema := t.tableSchema, tableName := t.tableName } from rfl, Option.bind_some, hw.ok]
    rw [List.length_map]
    have e' := e
    change parseTable isFloat dn _ { table := _, cache := { w.cache with
      schemas := w.cache.schemas.set t.tableSchema l.length
      tables := w.cache.tables.set (t.tableSchema, t.tableName) 0 }, failed := false, located := _, explicit := _ } = _ at e'
    rw [List.length_nil, e', Option.map_some, hw.catalog]
    simp only [Option.some.injEq, Writer.mk.injEq, and_true]
    simp only [List.map_append, List.map_cons, List.map_nil, schemaOf]
    rw [List.set_append]
    simp
  · refine ⟨rfl, hfa, ?_, ?_, ?_, ?_, ?_, ?_, ?_⟩
    · show NBlock p'.cache.schemas id _
      rw [hfr.schemas]
      have := hw.schemas.set (fun a b h => h) hn
      rw [List.length_map] at this
      rw [List.map_append]
      exact this
    · intro g hg
      show NBlock p'.cache.tables _ _
      rw [hfr.tables]
      rcases List.mem_append.1 hg with hg | hg
      · intro n i
        show (w.cache.tables.set (t.tableSchema, t.tableName) 0).get (g.1, n) = some i ↔ _
        rw [PosMap.get_set, if_neg]
        · exact hw.tables g hg n i
        · intro eq
          simp only [Prod.mk.injEq] at eq
          exact hn (List.mem_map.2 ⟨g, hg, eq.1⟩)
      · rw [List.mem_singleton] at hg
        subst hg
        exact (hw.noTables _ hn).set (fun a b h => by simpa using h) (by simp)
    · intro sn hsn
      show NBlock p'.cache.tables _ _
      rw [hfr.tables]
      intro n i
      show (w.cache.tables.set (t.tableSchema, t.tableName) 0).get (sn, n) = some i ↔ _
      rw [List.map_append, List.mem_append, not_or] at hsn
      rw [PosMap.get_set, if_neg]
      · exact hw.noTables sn hsn.1 n i
      · intro eq
        simp only [Prod.mk.injEq] at eq
        exact hsn.2 (by simp [eq.1])
    · intro g hg q hq
      rcases List.mem_append.1 hg with hg | hg
      · refine hfr.block ?_ ((hw.blocks g hg q hq).congr rfl rfl rfl rfl)
        intro eq
        simp only [Prod.mk.injEq] at eq
        exact habs g hg eq.1 q hq eq.2
      · rw [List.mem_singleton] at hg
        subst hg
        rw [List.mem_singleton] at hq
        subst hq
        exact hb
    · intro sn tn habs'
      refine hfr.block ?_ ((hw.noBlocks sn tn fun g hg => habs' g (by simp [hg])).congr rfl rfl rfl rfl)
      intro eq
      simp only [Prod.mk.injEq] at eq
      exact habs' (t.tableSchema, [(t, p'.table)]) (by simp) eq.1.symm (t, p'.table) (by simp) eq.2.symm
    · intro e' he
      rcases hx e' he with he | ⟨e1, e2⟩
      · obtain ⟨g, hg, h⟩ := hw.explicit e' he
        exact ⟨g, by simp [hg], h⟩
      · exact ⟨(t.tableSchema, [(t, p'.table)]), by simp, e1.symm, (t, p'.table), by simp, e2.symm⟩
    · intro g hg q hq
      rcases List.mem_append.1 hg with hg | hg
      · exact hw.read g hg q hq
      · rw [List.mem_singleton] at hg
        subst hg
        rw [List.mem_singleton] at hq
        subst hq
        exact ⟨rfl, hr⟩

include hf hok href in
/-- Another table of the last schema. -/
theorem nextTable_ok {l : Groups} {ts : List (Table × Table)} {w : Writer}
    (hw : WS (dialectOf dn) cat (l ++ [(t.tableSchema, ts)]) w)
    (hn : t.tableName ∉ ts.map (·.1.tableName)) :
    ∃ w' t', writeStruct isFloat dn w (flatStruct (structOf (dialectOf dn) cat t)) = some w' ∧
      WS (dialectOf dn) cat (l ++ [(t.tableSchema, ts ++ [(t, t')])]) w' := by
  have hlast : (t.tableSchema, ts) ∈ l ++ [(t.tableSchema, ts)] := by simp
  have hnd := hw.schemas.nodup
  have hnot : t.tableSchema ∉ l.map (·.1) := by
    rw [List.map_append, List.nodup_append] at hnd
    intro hm
    exact hnd.2.2 _ hm _ (by simp) rfl
  have habs : ∀ g ∈ l ++ [(t.tableSchema, ts)], g.1 = t.tableSchema → ∀ q ∈ g.2, q.1.tableName ≠ t.tableName := by
    intro g hg e q hq e'
    rcases List.mem_append.1 hg with hg | hg
    · exact hnot (List.mem_map.2 ⟨g, hg, e⟩)
    · rw [List.mem_singleton] at hg
      subst hg
      exact hn (List.mem_map.2 ⟨q, hq, e'⟩)
  let c1 : CatalogCache := { w.cache with
    tables := w.cache.tables.set (t.tableSchema, t.tableName) ts.length }
  obtain ⟨p', e, hr, hfa, hb, hfr, hx⟩ := newTable_ok (dn := dn) hf hok href (c := c1) (located := w.located)
    (ex := w.explicit) ((hw.noBlocks _ _ habs).congr rfl rfl rfl rfl) (by
      intro e he eq
      obtain ⟨g, hg, e1, q, hq, e2⟩ := hw.explicit e he
      simp only [Prod.mk.injEq] at eq
      exact habs g hg (e1.trans eq.1) q hq (e2.trans eq.2))
  have hcur : w.cat.currentSchema = cat.currentSchema := by rw [hw.catalog]; rfl
  have hsch : w.cat.schemas = l.map schemaOf ++ [schemaOf (t.tableSchema, ts)] := by
    rw [hw.catalog, List.map_append]; rfl
  have hslot : slot (fun s : Schema => s.ignore) (l.map schemaOf ++ [schemaOf (t.tableSchema, ts)])
      (w.cache.schemas.get t.tableSchema) = some (some l.length) := by
    refine slot_found (key := id) (name := fun s : Schema => s.schemaName) (x := schemaOf (t.tableSchema, ts)) ?_ ?_ rfl
    · have : (l.map schemaOf ++ [schemaOf (t.tableSchema, ts)]).map (fun s : Schema => s.schemaName) =
          (l ++ [(t.tableSchema, ts)]).map (·.1) := by
        rw [List.map_append, List.map_append, List.map_map]; rfl
      rw [this]; exact hw.schemas
    · simp
  have hnames : (ts.map (·.2)).map (fun s : Table => s.tableName) = ts.map (·.1.tableName) := by
    rw [List.map_map]
    refine List.map_congr_left fun q hq => ?_
    obtain ⟨-, l', -, -, -, e'⟩ := hw.read _ hlast q hq
    show q.2.tableName = _
    rw [e']
  have hslot2 : slot (fun s : Table => s.ignore) (ts.map (·.2)) (w.cache.tables.get (t.tableSchema, t.tableName)) = some none :=
    slot_fresh (key := fun n => (t.tableSchema, n)) (name := fun s : Table => s.tableName)
      (by rw [hnames]; exact hw.tables _ hlast) (by rw [hnames]; exact hn)
  refine ⟨{ cat := { emptyLike cat with schemas := (l ++ [(t.tableSchema, ts ++ [(t, p'.table)])]).map schemaOf },
            cache := p'.cache, failed := p'.failed, located := p'.located, explicit := p'.explicit },
    p'.table, ?_, ?_⟩
  · unfold writeStruct
    rw [struct_fields, if_neg (by decide), hcur, structTable_eq hf]
    unfold CatalogCache.getOrCreateSchema getOrCreateIn
    rw [hsch]
    dsimp only
    rw [hslot]
    dsimp only [Option.map_some, Option.elim_some, Option.bind_some]
    rw [show (l.map schemaOf ++ [schemaOf (t.tableSchema, ts)])[l.length]? =
      some (schemaOf (t.tableSchema, ts)) from by simp, Option.bind_some]
    unfold CatalogCache.getOrCreateTable getOrCreateIn
    dsimp only [schemaOf]
    rw [hslot2]
    dsimp only [Option.map_some, Option.elim_none, Option.bind_some]
    rw [show (ts.map (·.2) ++ [({ tableSchema := t.tableSchema, tableName := t.tableName } : Table)])[(ts.map (·.2)).length]? =
      some { tableSchema := t.tableSchema, tableName := t.tableName } from by simp, Option.bind_some, hw.ok]
    rw [List.length_map]
    have e' := e
    change parseTable isFloat dn _ { table := _, cache := { w.cache with
      tables := w.cache.tables.set (t.tableSchema, t.tableName) ts.length }, failed := false, located := _, explicit := _ } = _ at e'
    rw [e', Option.map_some, hw.catalog]
    simp only [Option.some.injEq, Writer.mk.injEq, and_true]
    simp only [List.map_append, List.map_cons, List.map_nil, schemaOf]
    rw [List.set_append, List.set_append]
    simp
  · refine ⟨rfl, hfa, ?_, ?_, ?_, ?_, ?_, ?_, ?_⟩
    · show NBlock p'.cache.schemas id _
      rw [hfr.schemas]
      have := hw.schemas
      rw [List.map_append] at this ⊢
      exact this
    · intro g hg
      show NBlock p'.cache.tables _ _
      rw [hfr.tables]
      rcases List.mem_append.1 hg with hg | hg
      · intro n i
        show (w.cache.tables.set (t.tableSchema, t.tableName) ts.length).get (g.1, n) = some i ↔ _
        rw [PosMap.get_set, if_neg]
        · exact hw.tables g (by simp [hg]) n i
        · intro eq
          simp only [Prod.mk.injEq] at eq
          exact hnot (List.mem_map.2 ⟨g, hg, eq.1⟩)
      · rw [List.mem_singleton] at hg
        subst hg
        have := (hw.tables _ hlast).set (fun a b h => by simpa using h) hn
        rw [List.length_map] at this
        rw [List.map_append]
        exact this
    · intro sn hsn
      show NBlock p'.cache.tables _ _
      rw [hfr.tables]
      intro n i
      show (w.cache.tables.set (t.tableSchema, t.tableName) ts.length).get (sn, n) = some i ↔ _
      have hsn' : sn ∉ (l ++ [(t.tableSchema, ts)]).map (·.1) := by
        rw [List.map_append] at hsn ⊢
        exact hsn
      rw [PosMap.get_set, if_neg]
      · exact hw.noTables sn hsn' n i
      · intro eq
        simp only [Prod.mk.injEq] at eq
        exact hsn (by simp [eq.1])
    · intro g hg q hq
      have : ∀ g' ∈ l ++ [(t.tableSchema, ts)], q ∈ g'.2 → g'.1 = g.1 →
          TableBlock p'.cache g.1 q.1.tableName q.2.columns q.2.constraints q.2.indexes := by
        intro g' hg' hq' e1
        refine hfr.block ?_ (by rw [← e1]; exact (hw.blocks g' hg' q hq').congr rfl rfl rfl rfl)
        intro eq
        simp only [Prod.mk.injEq] at eq
        exact habs g' hg' (e1.trans eq.1) q hq' eq.2
      rcases List.mem_append.1 hg with hg | hg
      · exact this g (by simp [hg]) hq rfl
      · rw [List.mem_singleton] at hg
        subst hg
        rcases List.mem_append.1 hq with hq | hq
        · exact this _ hlast hq rfl
        · rw [List.mem_singleton] at hq
          subst hq
          exact hb
    · intro sn tn habs'
      refine hfr.block ?_ ((hw.noBlocks sn tn fun g hg => ?_).congr rfl rfl rfl rfl)
      · intro eq
        simp only [Prod.mk.injEq] at eq
        exact habs' (t.tableSchema, ts ++ [(t, p'.table)]) (by simp) eq.1.symm (t, p'.table) (by simp) eq.2.symm
      · rcases List.mem_append.1 hg with hg | hg
        · exact habs' g (by simp [hg])
        · rw [List.mem_singleton] at hg
          subst hg
          intro e q hq
          exact habs' (t.tableSchema, ts ++ [(t, p'.table)]) (by simp) e q (by simp [hq])
    · intro e' he
      rcases hx e' he with he | ⟨e1, e2⟩
      · obtain ⟨g, hg, e1, q, hq, e2⟩ := hw.explicit e' he
        rcases List.mem_append.1 hg with hg | hg
        · exact ⟨g, by simp [hg], e1, q, hq, e2⟩
        · rw [List.mem_singleton] at hg
          subst hg
          exact ⟨(t.tableSchema, ts ++ [(t, p'.table)]), by simp, e1, q, by simp [hq], e2⟩
      · exact ⟨(t.tableSchema, ts ++ [(t, p'.table)]), by simp, e1.symm, (t, p'.table), by simp, e2.symm⟩
    · intro g hg q hq
      rcases List.mem_append.1 hg with hg | hg
      · exact hw.read g (by simp [hg]) q hq
      · rw [List.mem_singleton] at hg
        subst hg
        rcases List.mem_append.1 hq with hq | hq
        · exact hw.read _ hlast q hq
        · rw [List.mem_singleton] at hq
          subst hq
          exact ⟨rfl, hr⟩

end

end Sqddl.Structs
