import Verif.Lemmas.StructCatalog

/-!
# Reading all structs: the catalog
-/

namespace Sqddl.Structs
open Go StructSpec ModifierSpec

theorem Runs.flatMap {σ α γ : Type} {step : σ → α → Option σ} {f : γ → List α} (I : List γ → σ → Prop)
    (L : List γ) (h : ∀ pre a post, L = pre ++ a :: post → Runs step (I pre) (I (pre ++ [a])) (f a)) :
    Runs step (I []) (I L) (L.flatMap f) := by
  have : ∀ pre post, L = pre ++ post → Runs step (I pre) (I L) (post.flatMap f) := by
    intro pre post
    induction post generalizing pre with
    | nil => intro e; rw [e, List.append_nil]; exact Runs.nil fun _ h => h
    | cons a post ih =>
      intro e
      rw [List.flatMap_cons]
      exact (h pre a post e).append (ih (pre ++ [a]) (by rw [e]; simp))
  exact this [] L rfl

/-- The schemas with tables. -/
def groupsOf (ss : List Schema) : List (Str × List Table) :=
  (ss.filter fun s => !s.tables.isEmpty).map fun s => (s.schemaName, s.tables)

/-- The tables that have been read. -/
def Reached (d : Dialect) (cat : Catalog) (L : List (Str × List Table)) (w : Writer) : Prop :=
  ∃ l : Groups, l.map (fun g => (g.1, g.2.map (·.1))) = L ∧ WS d cat l w

theorem map_snoc_split {α β : Type} {f : α → β} {l : List α} {L : List β} {b : β} (h : l.map f = L ++ [b]) :
    ∃ l' a, l = l' ++ [a] ∧ l'.map f = L ∧ f a = b := by
  have hne : l ≠ [] := by rintro rfl; simp at h
  refine ⟨l.dropLast, l.getLast hne, (List.dropLast_concat_getLast hne).symm, ?_⟩
  rw [← List.dropLast_concat_getLast hne, List.map_append, List.map_singleton] at h
  have := List.append_inj' h rfl
  exact ⟨this.1, by simpa using this.2⟩

section
variable {isFloat : Str → Bool} {cat : Catalog} (hfit : Fits isFloat cat)
include hfit

theorem fits_refs {t : Table} (hf : TableFits isFloat (dialectOf cat.dialect) cat t) :
    ∀ k ∈ keysOf t, k.constraintType = FOREIGN_KEY → RefNames cat k :=
  fun k hk hfk => refNames hfit ((hf.keys k hk).ref hfk) (hf.keys k hk).columns.1

/-- The tables of one schema are read. -/
theorem schema_ok {s : Schema} (hs : s ∈ cat.schemas) {L : List (Str × List Table)}
    (hn : s.schemaName ∉ L.map (·.1)) :
    Runs (writeStruct isFloat cat.dialect) (Reached (dialectOf cat.dialect) cat L)
      (Reached (dialectOf cat.dialect) cat (L ++ groupsOf [s]))
      (s.tables.map fun t => flatStruct (structOf (dialectOf cat.dialect) cat t)) := by
  have hsok := hfit.ok.ok s hs
  have h := Runs.list (step := writeStruct isFloat cat.dialect)
    (f := fun t => flatStruct (structOf (dialectOf cat.dialect) cat t))
    (fun pre => Reached (dialectOf cat.dialect) cat (L ++ if pre = [] then [] else [(s.schemaName, pre)]))
    s.tables (by
      intro pre t post e w hw
      have ht : t ∈ s.tables := by rw [e]; simp
      have hf := hfit.tables s hs t ht
      have hts := hsok.schemaName t ht
      rw [if_neg (by simp)]
      by_cases hp : pre = []
      · rw [if_pos hp, List.append_nil] at hw
        obtain ⟨l, e1, hw⟩ := hw
        obtain ⟨w', t', e2, hw'⟩ := firstTable_ok hf (hsok.ok t ht) (fits_refs hfit hf) hw (by
          rw [hts]
          rw [← e1, List.map_map] at hn
          exact hn)
        refine ⟨w', e2, _, ?_, hw'⟩
        rw [List.map_append, e1, hp, hts]
        rfl
      · rw [if_neg hp] at hw
        obtain ⟨l, e1, hw⟩ := hw
        obtain ⟨l', g, rfl, e2, e3⟩ := map_snoc_split e1
        simp only [Prod.mk.injEq] at e3
        obtain ⟨gn, ts⟩ := g
        obtain ⟨e3, e4⟩ := e3
        change gn = s.schemaName at e3
        change ts.map (·.1) = pre at e4
        rw [e3, ← hts] at hw
        obtain ⟨w', t', e5, hw'⟩ := nextTable_ok hf (hsok.ok t ht) (fits_refs hfit hf) hw (by
          have hnd := hsok.tables
          rw [e, List.map_append, List.map_cons, List.nodup_append, ← e4, List.map_map] at hnd
          intro hm
          exact hnd.2.2 _ hm _ (by simp) rfl)
        refine ⟨w', e5, _, ?_, hw'⟩
        rw [List.map_append, e2, ← e4, hts]
        simp)
  rw [if_pos rfl, List.append_nil] at h
  have he : (if s.tables = [] then [] else [(s.schemaName, s.tables)]) = groupsOf [s] := by
    unfold groupsOf
    by_cases h0 : s.tables = []
    · rw [if_pos h0]; simp [h0]
    · rw [if_neg h0]; simp [h0]
  rw [he] at h
  exact h

/-- All structs are read. -/
theorem structs_ok : ∃ w, ((tablesOf cat).map fun t =>
      flatStruct (structOf (dialectOf cat.dialect) cat t)).foldlM (writeStruct isFloat cat.dialect)
      { cat := emptyLike cat, cache := newCatalogCache (emptyLike cat) } = some w ∧
    Reached (dialectOf cat.dialect) cat (groupsOf cat.schemas) w := by
  have h := Runs.flatMap (step := writeStruct isFloat cat.dialect)
    (f := fun s : Schema => s.tables.map fun t => flatStruct (structOf (dialectOf cat.dialect) cat t))
    (fun pre => Reached (dialectOf cat.dialect) cat (groupsOf pre)) cat.schemas (by
      intro pre s post e
      have hg : groupsOf (pre ++ [s]) = groupsOf pre ++ groupsOf [s] := by
        unfold groupsOf
        rw [List.filter_append, List.map_append]
      rw [hg]
      refine schema_ok hfit (by rw [e]; simp) ?_
      intro hm
      have hnd := hfit.ok.schemas
      rw [e, List.map_append, List.map_cons, List.nodup_append] at hnd
      unfold groupsOf at hm
      rw [List.map_map] at hm
      obtain ⟨s', hs', e'⟩ := List.mem_map.1 hm
      exact hnd.2.2 _ (List.mem_map.2 ⟨s', (List.mem_filter.1 hs').1, e'⟩) _ (by simp) rfl)
  have he : (tablesOf cat).map (fun t => flatStruct (structOf (dialectOf cat.dialect) cat t)) =
      cat.schemas.flatMap fun s => s.tables.map fun t => flatStruct (structOf (dialectOf cat.dialect) cat t) := by
    unfold tablesOf
    rw [List.map_flatMap]
  rw [he]
  refine h _ ⟨[], rfl, ?_⟩
  refine ⟨rfl, rfl, ?_, by simp, ?_, by simp, ?_, by simp, by simp⟩
  · intro n i; simp [newCatalogCache, emptyLike, positions, PosMap.get]
  · intro sn _ n i; simp [newCatalogCache, emptyLike, PosMap.get]
  · intro sn tn _
    refine ⟨?_, ?_, ?_, ?_⟩
    · intro n i; simp [newCatalogCache, emptyLike, PosMap.get]
    · intro n i; simp [newCatalogCache, emptyLike, PosMap.get]
    · intro n i; simp [newCatalogCache, emptyLike, PosMap.get]
    · intro i; simp [newCatalogCache, emptyLike, PosMap.get]

end

/-! ## Foreign keys -/

section
variable {isFloat : Str → Bool} {cat : Catalog} {l : Groups} {w : Writer}

theorem resolve_image (rs cur : Str) :
    resolve cur (if rs ≠ [] ∧ rs ≠ cur then rs else []) = resolve cur rs := by
  by_cases h : rs ≠ [] ∧ rs ≠ cur
  · rw [if_pos h]
  · rw [if_neg h]
    unfold resolve
    rw [if_pos rfl]
    by_cases h1 : rs = []
    · rw [if_pos h1]
    · rw [if_neg h1]
      exact (Classical.not_not.1 fun h2 => h ⟨h1, h2⟩).symm

theorem getAt_found {α K : Type} [DecidableEq K] {m : PosMap K} {key : Str → K} {name : α → Str} {xs : List α}
    {ign : α → Bool} (h : NBlock m key (xs.map name)) {x : α} (hx : x ∈ xs)
    (hi : ign x = false) : getAt ign xs (m.get (key (name x))) = .found x := by
  obtain ⟨i, e⟩ := List.getElem?_of_mem hx
  have : m.get (key (name x)) = some i := (h _ i).2 (by rw [List.getElem?_map, e]; rfl)
  rw [this]
  simp [getAt, e, hi]

theorem WS.names {d : Dialect} (hw : WS d cat l w) {g : Str × List (Table × Table)} (hg : g ∈ l) :
    (g.2.map (·.2)).map (fun s : Table => s.tableName) = g.2.map (·.1.tableName) := by
  rw [List.map_map]
  refine List.map_congr_left fun q hq => ?_
  obtain ⟨-, l', -, -, -, e'⟩ := hw.read _ hg q hq
  show q.2.tableName = _
  rw [e']

theorem fkey_found (hfit : Fits isFloat cat) {d : Dialect} (hw : WS d cat l w)
    (hl : l.map (fun g => (g.1, g.2.map (·.1))) = groupsOf cat.schemas) {t0 t : Table}
    (hf : TableFits isFloat d cat t) {k : Constraint} (hk : k ∈ keysOf t) {sn tn : Str} :
    fkeyMissing w t0 (keyImage sn tn cat.currentSchema k) = some false := by
  unfold fkeyMissing
  by_cases h0 : (keyImage sn tn cat.currentSchema k).ignore ∨
      (keyImage sn tn cat.currentSchema k).constraintType ≠ FOREIGN_KEY ∨
      !w.located.contains (t0.tableSchema, (keyImage sn tn cat.currentSchema k).constraintName)
  · rw [if_pos h0]
  · rw [if_neg h0]
    have hfk : k.constraintType = FOREIGN_KEY :=
      Classical.not_not.1 fun h => h0 (Or.inr (Or.inl h))
    obtain ⟨s, hs, es, r, hr, er, hrc⟩ := ((hf.keys k hk).ref hfk).target
    have hcur : w.cat.currentSchema = cat.currentSchema := by rw [hw.catalog]; rfl
    have hname : (if (keyImage sn tn cat.currentSchema k).referencesSchema = [] then w.cat.currentSchema
        else (keyImage sn tn cat.currentSchema k).referencesSchema) = s.schemaName := by
      rw [es, hcur]
      exact resolve_image k.referencesSchema cat.currentSchema
    have hmem : (s.schemaName, s.tables) ∈ groupsOf cat.schemas := by
      unfold groupsOf
      refine List.mem_map.2 ⟨s, List.mem_filter.2 ⟨hs, ?_⟩, rfl⟩
      cases hst : s.tables with
      | nil => rw [hst] at hr; simp at hr
      | cons a b => rfl
    rw [← hl] at hmem
    obtain ⟨g, hg, eg⟩ := List.mem_map.1 hmem
    simp only [Prod.mk.injEq] at eg
    rw [← eg.2] at hr
    obtain ⟨q, hq, eq⟩ := List.mem_map.1 hr
    have hsg : w.cache.getSchema w.cat s.schemaName = .found (schemaOf g) := by
      unfold CatalogCache.getSchema
      have hsch : w.cat.schemas = l.map schemaOf := by rw [hw.catalog]
      rw [hsch, ← eg.1]
      have h2 : (l.map schemaOf).map (fun s : Schema => s.schemaName) = l.map (·.1) := by
        rw [List.map_map]; rfl
      exact getAt_found (key := id) (name := fun s : Schema => s.schemaName) (by rw [h2]; exact hw.schemas)
        (List.mem_map_of_mem hg) rfl
    obtain ⟨-, l', el', hc', hlive, et'⟩ := hw.read g hg q hq
    have hqt : q.2.tableName = k.referencesTable := by rw [et', ← er, ← eq]
    have hqi : q.2.ignore = false := by rw [et']
    have htg : w.cache.getTable (schemaOf g) k.referencesTable = .found q.2 := by
      unfold CatalogCache.getTable
      rw [← hqt]
      exact getAt_found (key := fun n => (g.1, n)) (name := fun s : Table => s.tableName)
        (by
          show NBlock _ _ ((g.2.map (·.2)).map (fun s : Table => s.tableName))
          rw [hw.names hg]; exact hw.tables g hg) (List.mem_map_of_mem hq) hqi
    rw [hname]
    dsimp only
    rw [hsg]
    show (match w.cache.getTable (schemaOf g) k.referencesTable with
      | .panic => none
      | .nil => some true
      | .found r => missingColumn { table := r, cache := w.cache } k.referencesColumns) = _
    rw [htg]
    dsimp only
    have hst : St q.1.tableSchema q.1.tableName w.cache [] q.2.columns q.2.constraints q.2.indexes
        { table := q.2, cache := w.cache } := by
      have hb := hw.blocks g hg q hq
      rw [← (hw.read g hg q hq).1] at hb
      refine ⟨?_, rfl, hb, ?_, ?_, ?_, Frame.refl _ _ _, rfl⟩
      · rw [et']
      · intro c hc
        rw [et'] at hc
        obtain ⟨c', hc', e'⟩ := List.mem_map.1 hc
        rw [← e']
        exact hlive _ hc'
      · intro c hc
        rw [et'] at hc
        obtain ⟨c', -, e'⟩ := List.mem_map.1 hc
        rw [← e']; rfl
      · intro c hc
        rw [et'] at hc
        obtain ⟨c', -, e'⟩ := List.mem_map.1 hc
        rw [← e']; rfl
    refine hst.missing ?_
    intro n hn
    have := hrc n hn
    rw [← eq, ← el', List.map_map] at this
    rw [et']
    show n ∈ (l'.map (·.2)).map (·.columnName)
    rw [List.map_map]
    obtain ⟨c, hc, e⟩ := List.mem_map.1 this
    exact List.mem_map.2 ⟨c, hc, by rw [← e]; exact (hc' c hc).name⟩

end

/-! ## The same tables -/

section
variable {isFloat : Str → Bool} {cat : Catalog} {t t' : Table} {d : Dialect}

theorem ruleImage_same (r : Str) : sameRule (ruleImage r) r := by
  unfold sameRule ruleImage
  by_cases h : r = NO_ACTION
  · rw [if_pos h, h]; decide
  · rw [if_neg h]

theorem keyImage_same {k : Constraint} (hi : k.ignore = false) (sn tn cur : Str) : SameKey cur k (keyImage sn tn cur k) := by
  refine ⟨rfl, rfl, rfl, rfl, rfl, rfl, ?_, ruleImage_same _, ruleImage_same _, rfl, rfl⟩
  exact resolve_image k.referencesSchema cur

theorem readOf_same (hf : TableFits isFloat d cat t) (h : ReadOf d cat t t') :
    SameTable cat.currentSchema cat.defaultCollation t t' := by
  obtain ⟨l, h1, h2, h3, rfl⟩ := h
  refine ⟨rfl, rfl, rfl, ?_, ?_, ?_, ?_, ?_, ?_, ?_, rfl, rfl⟩
  · rw [← h1]; simp
  · intro q hq
    rw [← h1] at hq
    have hq' : q ∈ l := by
      rw [List.zip_map'] at hq
      simpa using hq
    have hc := h2 q hq'
    have ha := hc.attrs
    have hcm : q.1 ∈ t.columns := by rw [← h1]; exact List.mem_map_of_mem hq'
    refine ⟨h3 q hq', hc.name, ?_, congrArg Attrs.notNull ha, congrArg Attrs.auto ha,
      congrArg Attrs.identity ha, congrArg Attrs.default ha, congrArg Attrs.onUpdate ha,
      congrArg Attrs.collation ha, ?_⟩
    · have := congrArg Attrs.type ha
      change q.2.columnType = typeAfter d t (ordKeys t) q.1 at this
      rw [this]
      unfold typeAfter
      by_cases hp : pkOn (ordKeys t) q.1 = true
      · rw [if_pos hp]
      · rw [if_neg hp, parsedType, if_neg]
        rintro ⟨hr, -⟩
        refine hp ?_
        unfold rowid at hr
        rw [Bool.and_eq_true, Bool.and_eq_true] at hr
        cases hl : keysOn t PRIMARY_KEY q.1.columnName with
        | nil => rw [hl] at hr; simp at hr
        | cons k ks =>
          have hk := keysOn_mem (t := t) (ty := PRIMARY_KEY) (n := q.1.columnName) (k := k) (by rw [hl]; simp)
          unfold pkOn
          rw [List.any_eq_true]
          exact ⟨k, (mem_ordKeys hf).2 hk.1, by rw [hk.2.1, hk.2.2]; simp⟩
    · have := congrArg Attrs.generated ha
      change q.2.isGenerated = decide (q.1.isGenerated = true ∨ q.1.generatedExpr ≠ []) at this
      rw [this, decide_eq_true_iff]
  · intro k hk
    exact ⟨_, List.mem_map_of_mem ((mem_ordKeys hf).2 hk),
      keyImage_same (hf.constraintsLive k (mem_keysOf.1 hk).1) _ _ _⟩
  · intro k' hk'
    obtain ⟨k, hk, rfl⟩ := List.mem_map.1 hk'
    have hk := (mem_ordKeys hf).1 hk
    exact ⟨k, hk, keyImage_same (hf.constraintsLive k (mem_keysOf.1 hk).1) _ _ _⟩
  · intro x hx
    exact ⟨_, List.mem_map_of_mem ((mem_ordIndexes hf).2 hx), rfl, rfl, rfl, rfl, rfl⟩
  · intro x' hx'
    obtain ⟨x, hx, rfl⟩ := List.mem_map.1 hx'
    exact ⟨x, (mem_ordIndexes hf).1 hx, rfl, rfl, rfl, rfl, rfl⟩
  · intro k' hk'
    obtain ⟨k, -, rfl⟩ := List.mem_map.1 hk'
    exact ⟨rfl, rfl⟩

theorem readOf_ok (hf : TableFits isFloat d cat t) (hok : CatalogSpec.TableOk t) (h : ReadOf d cat t t') :
    CatalogSpec.TableOk t' := by
  obtain ⟨l, h1, h2, h3, rfl⟩ := h
  refine ⟨?_, ?_, ?_, ?_⟩
  · have : (l.map (·.2)).map (·.columnName) = t.columns.map (·.columnName) := by
      rw [← h1, List.map_map, List.map_map]
      exact List.map_congr_left fun q hq => (h2 q hq).name
    show ((l.map (·.2)).map (·.columnName)).Nodup
    rw [this]
    exact hok.columns
  · show (((ordIndexes t).map (idxImage t.tableSchema t.tableName)).map (·.indexName)).Nodup
    rw [idxImage_names]
    exact ordIndexes_nodup hf hok
  · show (((ordKeys t).map (keyImage t.tableSchema t.tableName cat.currentSchema)).map (·.constraintName)).Nodup
    rw [keyImage_names]
    exact ordKeys_nodup hf hok
  · intro k' hk'
    obtain ⟨k, hk, rfl⟩ := List.mem_map.1 hk'
    exact hok.named k (mem_keysOf.1 ((mem_ordKeys hf).1 hk)).1

end

/-! ## Everything together -/

section
variable {isFloat : Str → Bool} {cat : Catalog} (hfit : Fits isFloat cat)
include hfit

/-- The catalog read from the structs of a database, table by table. -/
theorem roundTrip_ok : ∃ cat' : Catalog, roundTrip isFloat cat = some (cat', false) ∧
    ∃ l : Groups, l.map (fun g => (g.1, g.2.map (·.1))) = groupsOf cat.schemas ∧
      cat' = { emptyLike cat with schemas := l.map schemaOf } ∧
      ∀ g ∈ l, ∀ q ∈ g.2, q.1.tableSchema = g.1 ∧ ReadOf (dialectOf cat.dialect) cat q.1 q.2 := by
  obtain ⟨w, e, l, hl, hw⟩ := structs_ok hfit
  refine ⟨w.cat, ?_, l, hl, hw.catalog, hw.read⟩
  unfold roundTrip
  have h1 := throughText_eq hfit
  rw [← Option.bind_assoc, h1, Option.bind_some]
  unfold writeCatalog
  show (List.foldlM (writeStruct isFloat cat.dialect) _ _).bind _ = _
  rw [e, Option.bind_some, hw.ok]
  have hall : ∀ (L : List (Table × Constraint)), (∀ e ∈ L, fkeyMissing w e.1 e.2 = some false) →
      L.foldlM (fun b (e : Table × Constraint) => (fkeyMissing w e.1 e.2).map (b || ·)) false = some false := by
    intro L hL
    induction L with
    | nil => rfl
    | cons a L ih =>
      rw [List.foldlM_cons, hL a (by simp)]
      exact ih fun e he => hL e (by simp [he])
  rw [hall]
  · rfl
  · intro e he
    have hsch : w.cat.schemas = l.map schemaOf := by rw [hw.catalog]
    rw [hsch] at he
    obtain ⟨s, hs, he⟩ := List.mem_flatMap.1 he
    obtain ⟨g, hg, rfl⟩ := List.mem_map.1 hs
    obtain ⟨t', ht', he⟩ := List.mem_flatMap.1 he
    obtain ⟨q, hq, rfl⟩ := List.mem_map.1 ht'
    obtain ⟨k', hk', rfl⟩ := List.mem_map.1 he
    have hmem : (g.1, g.2.map (·.1)) ∈ groupsOf cat.schemas := by
      rw [← hl]; exact List.mem_map.2 ⟨g, hg, rfl⟩
    obtain ⟨s, hs, es⟩ := List.mem_map.1 hmem
    simp only [Prod.mk.injEq] at es
    have hf := hfit.tables s (List.mem_filter.1 hs).1 q.1 (by rw [es.2]; exact List.mem_map_of_mem hq)
    obtain ⟨-, l', -, -, -, et'⟩ := hw.read g hg q hq
    rw [et'] at hk'
    obtain ⟨k, hk, rfl⟩ := List.mem_map.1 hk'
    exact fkey_found hfit hw hl hf ((mem_ordKeys hf).1 hk)

theorem roundTrip_same {cat' : Catalog} {l : Groups}
    (hl : l.map (fun g => (g.1, g.2.map (·.1))) = groupsOf cat.schemas)
    (hc : cat' = { emptyLike cat with schemas := l.map schemaOf })
    (hr : ∀ g ∈ l, ∀ q ∈ g.2, q.1.tableSchema = g.1 ∧ ReadOf (dialectOf cat.dialect) cat q.1 q.2) :
    SameTables cat cat' := by
  have hsrc : ∀ g ∈ l, ∃ s ∈ cat.schemas, s.schemaName = g.1 ∧ s.tables = g.2.map (·.1) := by
    intro g hg
    have hmem : (g.1, g.2.map (·.1)) ∈ groupsOf cat.schemas := by
      rw [← hl]; exact List.mem_map.2 ⟨g, hg, rfl⟩
    obtain ⟨s, hs, es⟩ := List.mem_map.1 hmem
    simp only [Prod.mk.injEq] at es
    exact ⟨s, (List.mem_filter.1 hs).1, es.1, es.2⟩
  have hfits : ∀ g ∈ l, ∀ q ∈ g.2, TableFits isFloat (dialectOf cat.dialect) cat q.1 ∧ CatalogSpec.TableOk q.1 := by
    intro g hg q hq
    obtain ⟨s, hs, -, e2⟩ := hsrc g hg
    have : q.1 ∈ s.tables := by rw [e2]; exact List.mem_map_of_mem hq
    exact ⟨hfit.tables s hs q.1 this, (hfit.ok.ok s hs).ok q.1 this⟩
  have hnm : l.map (·.1) = (cat.schemas.filter fun s => !s.tables.isEmpty).map (·.schemaName) := by
    have := congrArg (List.map Prod.fst) hl
    rw [List.map_map, groupsOf, List.map_map] at this
    exact this
  have hschemas : cat'.schemas = l.map schemaOf := by rw [hc]
  have htab : tablesOf cat = l.flatMap fun g => g.2.map (·.1) := by
    have : (groupsOf cat.schemas).flatMap (·.2) = tablesOf cat := by
      unfold groupsOf tablesOf
      induction cat.schemas with
      | nil => rfl
      | cons s ss ih =>
        rw [List.filter_cons]
        split
        · rw [List.map_cons, List.flatMap_cons, List.flatMap_cons, ih]
        · rename_i h
          have h0 : s.tables = [] := by simpa using h
          rw [ih, List.flatMap_cons, h0]; rfl
    rw [← this, ← hl, List.flatMap_map]
  have htab' : tablesOf cat' = l.flatMap fun g => g.2.map (·.2) := by
    unfold tablesOf
    rw [hschemas, List.flatMap_map]
    rfl
  have hpairs : ∃ Q : List (Table × Table), (∀ q ∈ Q, ∃ g ∈ l, q ∈ g.2) ∧
      tablesOf cat = Q.map (·.1) ∧ tablesOf cat' = Q.map (·.2) := by
    refine ⟨l.flatMap (·.2), fun q hq => ?_, ?_, ?_⟩
    · exact List.mem_flatMap.1 hq
    · rw [htab, List.map_flatMap]
    · rw [htab', List.map_flatMap]
  obtain ⟨Q, hQ, e1, e2⟩ := hpairs
  refine ⟨⟨?_, ?_⟩, ?_, ?_, ?_, ?_⟩
  · rw [hschemas, List.map_map]
    have : (l.map ((fun s : Schema => s.schemaName) ∘ schemaOf)) = l.map (·.1) := rfl
    rw [this, hnm]
    exact hfit.ok.schemas.sublist (List.filter_sublist.map _)
  · intro s hs
    rw [hschemas] at hs
    obtain ⟨g, hg, rfl⟩ := List.mem_map.1 hs
    obtain ⟨s, hs, e3, e4⟩ := hsrc g hg
    refine ⟨?_, by intro v hv; simp [schemaOf] at hv, ?_, ?_⟩
    · show ((g.2.map (·.2)).map (·.tableName)).Nodup
      have : (g.2.map (·.2)).map (fun s : Table => s.tableName) = s.tables.map (·.tableName) := by
        rw [e4, List.map_map, List.map_map]
        refine List.map_congr_left fun q hq => ?_
        obtain ⟨-, l', -, -, -, e'⟩ := hr g hg q hq
        show q.2.tableName = _
        rw [e']; rfl
      rw [this]
      exact (hfit.ok.ok s hs).tables
    · intro t' ht'
      obtain ⟨q, hq, rfl⟩ := List.mem_map.1 ht'
      obtain ⟨e5, l', -, -, -, e'⟩ := hr g hg q hq
      rw [e']
      exact e5
    · intro t' ht'
      obtain ⟨q, hq, rfl⟩ := List.mem_map.1 ht'
      exact readOf_ok (hfits g hg q hq).1 (hfits g hg q hq).2 (hr g hg q hq).2
  · intro s hs
    rw [hschemas] at hs
    obtain ⟨g, hg, rfl⟩ := List.mem_map.1 hs
    rfl
  · rw [hschemas, List.map_map, ← hnm]
    rfl
  · rw [e1, e2]; simp
  · intro p hp
    rw [e1, e2, List.zip_map'] at hp
    have hp' : p ∈ Q := by simpa using hp
    obtain ⟨g, hg, hq⟩ := hQ p hp'
    exact readOf_same (hfits g hg p hq).1 (hr g hg p hq).2

end

end Sqddl.Structs
