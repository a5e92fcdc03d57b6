import Verif.Lemmas.StructField

/-!
# Reading the struct of a table
-/

namespace Sqddl.Structs
open Go StructSpec ModifierSpec

section
variable {isFloat : Str → Bool} {cat : Catalog} {t : Table} {dn : Str}
variable (hf : TableFits isFloat (dialectOf dn) cat t)
variable (href : ∀ k ∈ keysOf t, k.constraintType = FOREIGN_KEY → RefNames cat k)
variable {sn : Str} {c0 : CatalogCache}

/-- The state between two modifiers of the table. -/
def KS (sn : Str) (cat : Catalog) (t : Table) (c0 : CatalogCache) (ex : List (Str × Str × Str))
    (cols : List Column) (K : List Constraint) (X : List Index) (st : Parser × List Str) : Prop :=
  st.2 = [] ∧ St sn t.tableName c0 ex cols (K.map (keyImage sn t.tableName cat.currentSchema))
    (X.map (idxImage sn t.tableName)) st.1

include hf href in
theorem tab_key {ex : List (Str × Str × Str)} {cols : List Column} {K : List Constraint} {X : List Index}
    {k : Constraint} (hk : k ∈ keysOf t) {st : Parser × List Str} (hst : KS sn cat t c0 ex cols K X st)
    (hfr : k.constraintName ∉ K.map (·.constraintName))
    (hnd : ((X ++ idxOf t k).map (·.indexName)).Nodup) :
    ∃ st', tableModifier dn st (flat (fullMod cat.currentSchema t.indexes k)) = some st' ∧
      KS sn cat t c0 ex cols (K ++ [k]) (X ++ idxOf t k) st' := by
  obtain ⟨p, ds⟩ := st
  obtain ⟨h0, h3⟩ := hst
  change ds = [] at h0
  subst h0
  have hcl := clean_full hf href hk
  have hgo := (keyColumns_go hf hk).2
  by_cases hty : k.constraintType = PRIMARY_KEY ∨ k.constraintType = UNIQUE
  · rw [fullMod_key _ _ hty] at hcl ⊢
    obtain ⟨p', e, h4⟩ := key_ok (dn := dn) h3 (hf.keys k hk) hgo rfl hty hcl
      (columns := []) (Or.inr rfl) (by rw [keyImage_names]; exact hfr)
    refine ⟨(p', []), ?_, rfl, ?_⟩
    · have hnm : (flat (.mk [] (kindName k.constraintType) [] (join b!"," k.columns) (deferModifier k))).name
          = kindName k.constraintType := rfl
      unfold tableModifier
      dsimp only
      rw [withDefaultDialects_nil _ rfl, hnm]
      have hne : kindName k.constraintType ≠ b!"dialect" ∧
          kindName k.constraintType ≠ b!"index" ∧
          (kindName k.constraintType = b!"primarykey" ∨ kindName k.constraintType = b!"unique") := by
        rcases hty with h | h <;> rw [h] <;> decide
      rw [if_neg hne.1, if_neg hne.2.1, if_pos hne.2.2]
      change parsePrimaryKeyUniqueModifier _ _ _ p = _ at e
      rw [e]
      rfl
    · rw [idxOf_key hty, List.append_nil, List.map_append]
      exact h4
  · rw [not_or] at hty
    replace hty : k.constraintType = FOREIGN_KEY := by
      rcases (mem_keysOf.1 hk).2 with h | h | h
      · exact absurd h hty.1
      · exact absurd h hty.2
      · exact h
    rw [fullMod_fkey hf hk hty] at hcl ⊢
    obtain ⟨p', e, h4⟩ := fkey_ok (dn := dn) (cat := cat) h3 (hf.keys k hk) hgo rfl hty
      (href k hk hty) (idxOf_ok hf) hcl (by rw [keyImage_names]; exact hfr)
      (by rw [idxImage_names, ← List.map_append]; exact hnd)
    refine ⟨(p', []), ?_, rfl, ?_⟩
    · unfold tableModifier
      dsimp only
      rw [withDefaultDialects_nil _ rfl]
      change parseForeignKeyModifier _ _ p = _ at e
      show (parseForeignKeyModifier dn _ p).map _ = _
      rw [e]
      rfl
    · rw [List.map_append, List.map_append]
      exact h4

/-! ## Fields -/

/-- The state between two fields: `done` are the columns that have been read. -/
def TS (sn : Str) (d : Dialect) (cat : Catalog) (t : Table) (c0 : CatalogCache)
    (ex0 : List (Str × Str × Str)) (done : List Column) (K : List Constraint) (X : List Index)
    (p : Parser) : Prop :=
  ∃ l : List (Column × Column), l.map (·.1) = done ∧
    (∀ q ∈ l, q.2.columnName = q.1.columnName ∧ attrsOf q.2 = parsedAttrs d cat t q.1) ∧
    St sn t.tableName c0 (ex0 ++ done.flatMap (colEx sn d t)) (l.map (·.2))
      (K.map (keyImage sn t.tableName cat.currentSchema)) (X.map (idxImage sn t.tableName)) p

theorem TS.iff {d : Dialect} {ex0 : List (Str × Str × Str)} {done : List Column} {K : List Constraint}
    {X : List Index} {p : Parser} : TS sn d cat t c0 ex0 done K X p ↔
    ∃ l : List (Column × Column), l.map (·.1) = done ∧
      (∀ q ∈ l, q.2.columnName = q.1.columnName ∧ attrsOf q.2 = parsedAttrs d cat t q.1) ∧
      KS sn cat t c0 (ex0 ++ done.flatMap (colEx sn d t)) (l.map (·.2)) K X (p, []) := by
  unfold TS KS
  refine exists_congr fun l => and_congr_right fun _ => and_congr_right fun _ => ?_
  exact ⟨fun h => ⟨rfl, h⟩, fun h => h.2⟩

include hf href in
theorem blank_key {ex0 : List (Str × Str × Str)} {done : List Column} {K : List Constraint} {X : List Index}
    {k : Constraint} (hk : k ∈ keysOf t) {p : Parser}
    (hst : TS sn (dialectOf dn) cat t c0 ex0 done K X p)
    (hfr : k.constraintName ∉ K.map (·.constraintName))
    (hnd : ((X ++ idxOf t k).map (·.indexName)).Nodup) :
    ∃ p', parseField isFloat dn p (flatField (blankField (fullMod cat.currentSchema t.indexes k))) = some p' ∧
      TS sn (dialectOf dn) cat t c0 ex0 done (K ++ [k]) (X ++ idxOf t k) p' := by
  obtain ⟨l, h1, h2, h3⟩ := TS.iff.1 hst
  obtain ⟨st', e, h4⟩ := tab_key hf href hk h3 hfr hnd
  obtain ⟨p', ds⟩ := st'
  have h5 := h4.1
  change ds = [] at h5
  subst h5
  refine ⟨p', ?_, TS.iff.2 ⟨l, h1, h2, h4⟩⟩
  unfold parseField
  rw [if_pos (Or.inr ⟨rfl, rfl⟩)]
  unfold parseTableModifiers
  show ([flat (fullMod cat.currentSchema t.indexes k)].foldlM (tableModifier dn) (p, [])).map _ = _
  rw [List.foldlM_cons, e]
  rfl

include hf in
theorem blank_index {ex0 : List (Str × Str × Str)} {done : List Column} {K : List Constraint} {X : List Index}
    {x : Index} (hx : x ∈ t.indexes) {p : Parser}
    (hst : TS sn (dialectOf dn) cat t c0 ex0 done K X p)
    (hfr : x.indexName ∉ X.map (·.indexName)) :
    ∃ p', parseField isFloat dn p (flatField (blankField (indexModifier x))) = some p' ∧
      TS sn (dialectOf dn) cat t c0 ex0 done K (X ++ [x]) p' := by
  obtain ⟨l, h1, h2, h3⟩ := hst
  have hcl := clean_indexOf hf hx
  rw [indexModifier_eq] at hcl
  obtain ⟨p', e, h4⟩ := index_ok (dn := dn) h3 (hf.indexes x hx) (indexColumns_go hf hx).2 rfl hcl
    (columns := []) (Or.inr rfl) (by rw [idxImage_names]; exact hfr)
  refine ⟨p', ?_, l, h1, h2, ?_⟩
  · unfold parseField
    rw [if_pos (Or.inr ⟨rfl, rfl⟩)]
    unfold parseTableModifiers
    show ([flat (indexModifier x)].foldlM (tableModifier dn) (p, [])).map _ = _
    rw [List.foldlM_cons]
    have : tableModifier dn (p, []) (flat (indexModifier x)) = some (p', []) := by
      unfold tableModifier
      dsimp only
      rw [withDefaultDialects_nil _ rfl]
      show (parseIndexModifier dn (flat (indexModifier x)) [] p).map _ = _
      rw [indexModifier_eq, e]
      rfl
    rw [this]
    rfl
  · rw [List.map_append]; exact h4

include hf href in
theorem head_ok {ex0 : List (Str × Str × Str)} {p : Parser} {tag : Str}
    (hst : TS sn (dialectOf dn) cat t c0 ex0 [] [] [] p)
    (hK : ((widePkey t).map (·.constraintName)).Nodup) :
    ∃ p', parseField isFloat dn p (flatField
        { type := b!"sq.TableStruct", nameTag := tag,
          modifiers := (widePkey t).map (fullMod cat.currentSchema t.indexes) }) = some p' ∧
      TS sn (dialectOf dn) cat t c0 ex0 [] (widePkey t) [] p' := by
  obtain ⟨l, h1, h2, h3⟩ := TS.iff.1 hst
  have hidx : (widePkey t).flatMap (idxOf t) = [] := by
    rw [List.flatMap_eq_nil_iff]
    intro k hk
    refine idxOf_key (Or.inl ?_)
    have := (List.mem_filter.1 hk).2
    rw [Bool.and_eq_true] at this
    exact eq_of_beq this.1
  have hr := keys_run (step := tableModifier dn) (t := t)
    (f := fun k => flat (fullMod cat.currentSchema t.indexes k))
    (KS sn cat t c0 (ex0 ++ ([] : List Column).flatMap (colEx sn (dialectOf dn) t)) (l.map (·.2)))
    (L := widePkey t) (K := []) (X := [])
    (fun k hk K X s hs hfr hnd => tab_key hf href (List.mem_filter.1 hk).1 hs hfr hnd)
    hK (by rw [hidx]; simp)
  obtain ⟨st', e, h4⟩ := hr _ h3
  rw [hidx] at h4
  obtain ⟨p', ds⟩ := st'
  have h5 := h4.1
  change ds = [] at h5
  subst h5
  refine ⟨p', ?_, TS.iff.2 ⟨l, h1, h2, h4⟩⟩
  unfold parseField
  rw [if_pos (Or.inl ⟨rfl, rfl⟩)]
  unfold parseTableModifiers
  show (((((widePkey t).map (fullMod cat.currentSchema t.indexes)).map flat)).foldlM (tableModifier dn) (p, [])).map _ = _
  rw [List.map_map]
  change ((((widePkey t).map fun k => flat (fullMod cat.currentSchema t.indexes k))).foldlM (tableModifier dn) (p, [])).map _ = _
  rw [e]
  rfl

include hf href in
theorem field_ok {ex0 : List (Str × Str × Str)} {done : List Column} {K : List Constraint} {X : List Index}
    {c : Column} (hc : c ∈ t.columns) {p : Parser}
    (hst : TS sn (dialectOf dn) cat t c0 ex0 done K X p)
    (hfr : c.columnName ∉ done.map (·.columnName))
    (hK : ((K ++ colKeys t c).map (·.constraintName)).Nodup)
    (hX : ((X ++ colIndexes t c).map (·.indexName)).Nodup) :
    ∃ p', parseField isFloat dn p (flatField (columnFieldOf (dialectOf dn) cat t c)) = some p' ∧
      TS sn (dialectOf dn) cat t c0 ex0 (done ++ [c]) (K ++ colKeys t c) (X ++ colIndexes t c) p' := by
  obtain ⟨l, h1, h2, h3⟩ := hst
  have hn := (hf.columns c hc).name
  obtain ⟨r, hr, hr2⟩ := startType hf hc
  have hft : fieldType (dialectOf dn) c ∈ fieldTypes := getFieldType_mem (getFieldType_some hf hc)
  have hcols : c.columnName ∉ (l.map (·.2)).map (·.columnName) := by
    rw [← h1] at hfr
    intro hm
    rw [List.map_map] at hm hfr
    obtain ⟨q, hq, e⟩ := List.mem_map.1 hm
    exact hfr (List.mem_map.2 ⟨q, hq, by rw [← e]; exact ((h2 q hq).1).symm⟩)
  have hcol : (if (flatField (columnFieldOf (dialectOf dn) cat t c)).nameTag ≠ [] then
      (flatField (columnFieldOf (dialectOf dn) cat t c)).nameTag
      else toLower (flatField (columnFieldOf (dialectOf dn) cat t c)).name) = c.columnName := by
    show (if (if needsQuoting c.columnName then c.columnName else []) ≠ [] then
      (if needsQuoting c.columnName then c.columnName else []) else
        toLower (toUpper (noSpace c.columnName))) = c.columnName
    by_cases hq : needsQuoting c.columnName = true
    · rw [if_pos hq, if_pos hn.1]
    · rw [if_neg hq, if_neg (by simp)]
      exact toLower_toUpper hn (by simpa using hq)
  -- the column with its preset length
  have hstart : ∃ p1, presetLength c.columnName r.1 r.2 p = some p1 ∧
      ∃ t' c', p1.cache.getOrCreateColumn p1.table c.columnName r.1 = some (t', c', l.length) ∧
      p1.table.tableSchema = sn ∧ p1.table.tableName = t.tableName ∧
      ∃ col, col.columnName = c.columnName ∧ attrsOf col = { type := r.1 } ∧
        St sn t.tableName c0 (ex0 ++ done.flatMap (colEx sn (dialectOf dn) t)) (l.map (·.2) ++ [col])
          (K.map (keyImage sn t.tableName cat.currentSchema)) (X.map (idxImage sn t.tableName))
          { p1 with table := t', cache := c' } := by
    obtain ⟨t', c', e, h4⟩ := h3.newColumn (ty := r.1) hcols
    rw [List.length_map] at e
    by_cases hl : r.2 = []
    · refine ⟨p, by rw [presetLength, if_pos hl], t', c', e, by rw [h3.table], by rw [h3.table], _, ?_, ?_, h4⟩
      · rfl
      · rfl
    · have h5 := h4.setColumn (f := fun x => { x with characterLength := r.2 }) rfl rfl
      have h6 := h5.lastColumn r.1
      rw [List.length_map] at h5 h6
      refine ⟨_, ?_, _, _, h6, by rw [h5.table], by rw [h5.table], _, ?_, ?_, h5⟩
      · rw [presetLength, if_neg hl, e]; rfl
      · rfl
      · rfl
  obtain ⟨p1, e1, t', c', e2, es, et, col, hcn, hca, h4⟩ := hstart
  have h5 := h4.setColumn (f := fun x => { x with tableSchema := sn, tableName := t.tableName, isEnum := r.1 == b!"sq.EnumField" })
    rfl (h4.colsLive col (by simp))
  have hrun := column_ok (X := X) (K := K) (c0 := c0) (cols := l.map (·.2)) (sn := sn)
    (ex := ex0 ++ done.flatMap (colEx sn (dialectOf dn) t)) hf hc href hr2 hK hX
  rw [List.length_map] at h5 hrun
  obtain ⟨⟨p', ds⟩, e3, h6, col', h7, h8, h9⟩ := hrun
    (({ p1 with table := t', cache := c' } : Parser).setColumn l.length fun x =>
      { x with tableSchema := sn, tableName := t.tableName, isEnum := r.1 == b!"sq.EnumField" }, [])
    ⟨rfl, { col with tableSchema := sn, tableName := t.tableName, isEnum := r.1 == b!"sq.EnumField" },
      hcn, hca, h5⟩
  refine ⟨p', ?_, l ++ [(c, col')], ?_, ?_, ?_⟩
  · unfold parseField
    rw [if_neg]
    · dsimp only
      rw [hcol]
      have hr' : fieldColumnType (dialectOf dn) (flatField (columnFieldOf (dialectOf dn) cat t c)).type = some r := hr
      rw [hr', Option.elim_some, e1, Option.bind_some]
      unfold parseColumnModifiers
      rw [e2, Option.bind_some, es, et]
      show Option.map _ (List.foldlM _ _ ((columnMods (dialectOf dn) cat t (fieldType (dialectOf dn) c) c).map flat)) = _
      rw [e3]
      rfl
    · rintro (⟨h, -⟩ | ⟨h, -⟩)
      · exact (toUpper_ne hn).1 h
      · exact (toUpper_ne hn).2 h
  · rw [List.map_append, h1]; rfl
  · intro q hq
    rcases List.mem_append.1 hq with hq | hq
    · exact h2 q hq
    · rw [List.mem_singleton] at hq
      subst hq
      exact ⟨h7, h8⟩
  · rw [List.flatMap_append, List.flatMap_singleton, ← List.append_assoc, List.map_append]
    exact h9

end

/-! ## The order in which keys and indexes are read -/

/-- The keys in the order in which they are read. -/
def ordKeys (t : Table) : List Constraint :=
  widePkey t ++ t.columns.flatMap (colKeys t) ++ restKeysOf t

/-- The indexes in the order in which they are read. -/
def ordIndexes (t : Table) : List Index :=
  t.columns.flatMap (colIndexes t) ++ (restKeysOf t).flatMap (idxOf t) ++ restIndexesOf t

theorem nodup_of_map {α β : Type} {f : α → β} {l : List α} (h : (l.map f).Nodup) : l.Nodup := by
  rw [List.Nodup, List.pairwise_map] at h
  exact h.imp fun hne e => hne (by rw [e])

theorem inj_of_nodup {α β : Type} {f : α → β} {l : List α} (h : (l.map f).Nodup) {a b : α}
    (ha : a ∈ l) (hb : b ∈ l) (e : f a = f b) : a = b := by
  obtain ⟨i, hi⟩ := List.getElem?_of_mem ha
  obtain ⟨j, hj⟩ := List.getElem?_of_mem hb
  have := getElem?_nodup_inj h hi hj e
  subst this
  rw [hi] at hj
  exact Option.some.inj hj

theorem nodup_map_on {α β : Type} {f : α → β} {l : List α} (h : l.Nodup)
    (hinj : ∀ a ∈ l, ∀ b ∈ l, f a = f b → a = b) : (l.map f).Nodup := by
  rw [List.Nodup, List.pairwise_map]
  exact List.Pairwise.imp_of_mem (fun ha hb hne e => hne (hinj _ ha _ hb e)) h

theorem nodup_flatMap {α β : Type} {f : α → List β} {l : List α} (h1 : ∀ a ∈ l, (f a).Nodup)
    (h2 : l.Pairwise fun a b => ∀ x ∈ f a, x ∉ f b) : (l.flatMap f).Nodup := by
  rw [List.Nodup, List.pairwise_flatMap]
  refine ⟨h1, h2.imp ?_⟩
  rintro a b h x hx y hy rfl
  exact h x hx hy

section
variable {isFloat : Str → Bool} {cat : Catalog} {t : Table} {d : Dialect}
variable (hf : TableFits isFloat d cat t) (hok : CatalogSpec.TableOk t)

include hok in
theorem keysOf_inj {k l : Constraint} (hk : k ∈ keysOf t) (hl : l ∈ keysOf t)
    (e : k.constraintName = l.constraintName) : k = l := inj_of_nodup (keysOf_nodup hok) hk hl e

include hf hok in
theorem keysOf_eq {k l : Constraint} (hk : k ∈ keysOf t) (hl : l ∈ keysOf t)
    (e1 : k.constraintType = l.constraintType) (e2 : k.columns = l.columns) : k = l :=
  keysOf_inj hok hk hl (key_name_eq hf hk hl e1 e2)

theorem mem_colKeys {c : Column} {k : Constraint} :
    k ∈ colKeys t c ↔ k ∈ keysOf t ∧ k.columns = [c.columnName] := by
  unfold colKeys keysOn
  simp only [List.mem_append, List.mem_filter, Bool.and_eq_true, beq_iff_eq]
  constructor
  · rintro ((h | h) | h) <;> exact ⟨h.1, h.2.2⟩
  · rintro ⟨h1, h2⟩
    rcases (mem_keysOf.1 h1).2 with h | h | h
    · exact Or.inl (Or.inl ⟨h1, h, h2⟩)
    · exact Or.inl (Or.inr ⟨h1, h, h2⟩)
    · exact Or.inr ⟨h1, h, h2⟩

include hf in
theorem mem_ordKeys {k : Constraint} : k ∈ ordKeys t ↔ k ∈ keysOf t := by
  unfold ordKeys widePkey restKeysOf
  simp only [List.mem_append, List.mem_flatMap, mem_colKeys, List.mem_filter, Bool.and_eq_true,
    Bool.not_eq_true', Bool.or_eq_false_iff, beq_iff_eq, bne_iff_ne, beq_eq_false_iff_ne]
  constructor
  · rintro ((h | ⟨c, -, h⟩) | h)
    · exact h.1
    · exact h.1
    · exact h.1
  · intro hk
    by_cases hl : k.columns.length = 1
    · obtain ⟨n, hn⟩ := List.length_eq_one_iff.1 hl
      have hm := (hf.keys k hk).columns.2 n (by rw [hn]; simp)
      obtain ⟨c, hc, e⟩ := List.mem_map.1 hm
      exact Or.inl (Or.inr ⟨c, hc, hk, by rw [hn, e]⟩)
    · by_cases hp : k.constraintType = PRIMARY_KEY
      · exact Or.inl (Or.inl ⟨hk, hp, hl⟩)
      · exact Or.inr ⟨hk, hp, hl⟩

include hok in
theorem keysOn_nodup (ty n : Str) : (keysOn t ty n).Nodup :=
  (nodup_of_map (keysOf_nodup hok)).sublist List.filter_sublist

include hok in
theorem columns_pairwise {P : Column → Column → Prop}
    (h : ∀ a b, a.columnName ≠ b.columnName → P a b) : t.columns.Pairwise P := by
  have := hok.columns
  rw [List.Nodup, List.pairwise_map] at this
  exact this.imp fun hne => h _ _ hne

include hok in
theorem ordKeys_nodup' : (ordKeys t).Nodup := by
  have hnd := nodup_of_map (keysOf_nodup hok)
  have hcol : (t.columns.flatMap (colKeys t)).Nodup := by
    refine nodup_flatMap (fun c _ => ?_) (columns_pairwise hok fun a b hne k hk hk' => ?_)
    · unfold colKeys
      rw [List.nodup_append]
      refine ⟨?_, keysOn_nodup hok _ _, ?_⟩
      · rw [List.nodup_append]
        refine ⟨keysOn_nodup hok _ _, keysOn_nodup hok _ _, ?_⟩
        rintro k hk l hl rfl
        have h1 := (keysOn_mem hk).2.1
        rw [(keysOn_mem hl).2.1] at h1
        exact absurd h1 (by decide)
      · rintro k hk l hl rfl
        have h2 := (keysOn_mem hl).2.1
        rcases List.mem_append.1 hk with hk | hk
        · rw [(keysOn_mem hk).2.1] at h2
          exact absurd h2 (by decide)
        · rw [(keysOn_mem hk).2.1] at h2
          exact absurd h2 (by decide)
    · have h1 := (mem_colKeys.1 hk).2
      rw [(mem_colKeys.1 hk').2] at h1
      simp only [List.cons.injEq, and_true] at h1
      exact hne h1.symm
  have hlen : ∀ k ∈ t.columns.flatMap (colKeys t), k.columns.length = 1 := by
    intro k hk
    obtain ⟨c, -, h⟩ := List.mem_flatMap.1 hk
    rw [(mem_colKeys.1 h).2]; rfl
  unfold ordKeys
  rw [List.nodup_append]
  refine ⟨?_, hnd.sublist List.filter_sublist, ?_⟩
  · rw [List.nodup_append]
    refine ⟨hnd.sublist List.filter_sublist, hcol, ?_⟩
    rintro k hk l hl rfl
    have := (List.mem_filter.1 hk).2
    rw [Bool.and_eq_true] at this
    have h2 := this.2
    rw [hlen k hl] at h2
    exact absurd h2 (by decide)
  · rintro k hk l hl rfl
    have := (List.mem_filter.1 hl).2
    rw [Bool.not_eq_true', Bool.or_eq_false_iff] at this
    rcases List.mem_append.1 hk with hk | hk
    · have h1 := (List.mem_filter.1 hk).2
      rw [Bool.and_eq_true, this.1] at h1
      exact absurd h1.1 (by decide)
    · have h1 := this.2
      rw [hlen k hk] at h1
      exact absurd h1 (by decide)

include hf hok in
theorem ordKeys_nodup : ((ordKeys t).map (·.constraintName)).Nodup :=
  nodup_map_on (ordKeys_nodup' hok) fun _ ha _ hb e =>
    keysOf_inj hok ((mem_ordKeys hf).1 ha) ((mem_ordKeys hf).1 hb) e

theorem mem_idxOf {k : Constraint} {x : Index} :
    x ∈ idxOf t k ↔ k.constraintType = FOREIGN_KEY ∧ x ∈ t.indexes ∧ x.columns = k.columns := by
  unfold idxOf
  split
  · rename_i h
    simp [h]
  · rename_i h
    simp [h]

theorem mem_colIndexes {c : Column} {x : Index} :
    x ∈ colIndexes t c ↔ x ∈ t.indexes ∧ x.columns = [c.columnName] := by
  unfold colIndexes
  rw [List.mem_append, List.mem_flatMap]
  constructor
  · rintro (⟨k, hk, hx⟩ | h)
    · exact ⟨(mem_idxOf.1 hx).2.1, (mem_idxOf.1 hx).2.2.trans (keysOn_mem hk).2.2⟩
    · split at h
      · obtain ⟨h1, h2⟩ := List.mem_filter.1 h
        exact ⟨h1, eq_of_beq h2⟩
      · simp at h
  · rintro ⟨h1, h2⟩
    by_cases hfk : keysOn t FOREIGN_KEY c.columnName = []
    · rw [if_pos hfk]
      exact Or.inr (List.mem_filter.2 ⟨h1, by rw [h2]; simp⟩)
    · obtain ⟨k, l, e⟩ := List.exists_cons_of_ne_nil hfk
      have hk : k ∈ keysOn t FOREIGN_KEY c.columnName := by rw [e]; simp
      refine Or.inl ⟨k, hk, mem_idxOf.2 ⟨(keysOn_mem hk).2.1, h1, ?_⟩⟩
      rw [h2, (keysOn_mem hk).2.2]

include hf in
theorem mem_ordIndexes {x : Index} : x ∈ ordIndexes t ↔ x ∈ t.indexes := by
  unfold ordIndexes
  simp only [List.mem_append, List.mem_flatMap, mem_colIndexes, mem_idxOf]
  constructor
  · rintro ((⟨c, -, h⟩ | ⟨k, -, h⟩) | h)
    · exact h.1
    · exact h.2.1
    · exact (List.mem_filter.1 h).1
  · intro hx
    by_cases hl : x.columns.length = 1
    · obtain ⟨n, hn⟩ := List.length_eq_one_iff.1 hl
      have hm := (hf.indexes x hx).columns.2 n (by rw [hn]; simp)
      obtain ⟨c, hc, e⟩ := List.mem_map.1 hm
      exact Or.inl (Or.inl ⟨c, hc, hx, by rw [hn, e]⟩)
    · by_cases hp : ∃ k ∈ keysOf t, k.constraintType = FOREIGN_KEY ∧ k.columns = x.columns
      · obtain ⟨k, hk, e1, e2⟩ := hp
        refine Or.inl (Or.inr ⟨k, ?_, e1, hx, e2.symm⟩)
        refine List.mem_filter.2 ⟨hk, ?_⟩
        rw [e1, e2]
        simp [hl]
        decide
      · refine Or.inr (List.mem_filter.2 ⟨hx, ?_⟩)
        rw [Bool.and_eq_true, Bool.not_eq_true', Bool.not_eq_true', List.any_eq_false]
        refine ⟨fun k hk e => hp ⟨k, hk, ?_⟩, by simpa using hl⟩
        rw [Bool.and_eq_true] at e
        exact ⟨eq_of_beq e.1, eq_of_beq e.2⟩

include hf hok in
theorem idxOf_nodup {L : List Constraint} (hL : ∀ k ∈ L, k ∈ keysOf t) (hnd : L.Nodup) :
    (L.flatMap (idxOf t)).Nodup := by
  refine nodup_flatMap (fun k _ => ?_) ?_
  · unfold idxOf
    split
    · exact (nodup_of_map hok.indexes).sublist List.filter_sublist
    · simp
  · refine List.Pairwise.imp_of_mem (fun {a b} ha hb hne x hx hx' => ?_) hnd
    have h1 := mem_idxOf.1 hx
    have h2 := mem_idxOf.1 hx'
    exact hne (keysOf_eq hf hok (hL a ha) (hL b hb) (h1.1.trans h2.1.symm) (h1.2.2.symm.trans h2.2.2))

include hf hok in
theorem ordIndexes_nodup' : (ordIndexes t).Nodup := by
  have hnd := nodup_of_map hok.indexes
  have hcol : (t.columns.flatMap (colIndexes t)).Nodup := by
    refine nodup_flatMap (fun c _ => ?_) (columns_pairwise hok fun a b hne k hk hk' => ?_)
    · unfold colIndexes
      split
      · rename_i h
        rw [h, List.flatMap_nil, List.nil_append]
        exact hnd.sublist List.filter_sublist
      · rw [List.append_nil]
        exact idxOf_nodup hf hok (fun k hk => (keysOn_mem hk).1) (keysOn_nodup hok _ _)
    · have h1 := (mem_colIndexes.1 hk).2
      rw [(mem_colIndexes.1 hk').2] at h1
      simp only [List.cons.injEq, and_true] at h1
      exact hne h1.symm
  have hlen : ∀ x ∈ t.columns.flatMap (colIndexes t), x.columns.length = 1 := by
    intro x hx
    obtain ⟨c, -, h⟩ := List.mem_flatMap.1 hx
    rw [(mem_colIndexes.1 h).2]; rfl
  unfold ordIndexes
  rw [List.nodup_append]
  refine ⟨?_, hnd.sublist List.filter_sublist, ?_⟩
  · rw [List.nodup_append]
    refine ⟨hcol, idxOf_nodup hf hok (fun k hk => (List.mem_filter.1 hk).1)
      ((nodup_of_map (keysOf_nodup hok)).sublist List.filter_sublist), ?_⟩
    rintro x hx y hy rfl
    obtain ⟨k, hk, hxk⟩ := List.mem_flatMap.1 hy
    have h1 := (List.mem_filter.1 hk).2
    rw [Bool.not_eq_true', Bool.or_eq_false_iff, ← (mem_idxOf.1 hxk).2.2, hlen x hx] at h1
    exact absurd h1.2 (by decide)
  · rintro x hx y hy rfl
    have h1 := (List.mem_filter.1 hy).2
    rw [Bool.and_eq_true, Bool.not_eq_true', Bool.not_eq_true', List.any_eq_false] at h1
    rcases List.mem_append.1 hx with hx | hx
    · rw [hlen x hx] at h1
      exact absurd h1.2 (by decide)
    · obtain ⟨k, hk, hxk⟩ := List.mem_flatMap.1 hx
      refine h1.1 k (List.mem_filter.1 hk).1 ?_
      have h2 := mem_idxOf.1 hxk
      rw [h2.1, h2.2.2]
      simp

include hf hok in
theorem ordIndexes_nodup : ((ordIndexes t).map (·.indexName)).Nodup :=
  nodup_map_on (ordIndexes_nodup' hf hok) fun _ ha _ hb e =>
    inj_of_nodup hok.indexes ((mem_ordIndexes hf).1 ha) ((mem_ordIndexes hf).1 hb) e

end

end Sqddl.Structs
