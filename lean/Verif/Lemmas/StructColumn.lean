import Verif.Lemmas.StructFkeys

/-!
# Reading columns
-/

namespace Sqddl.Structs
open Go StructSpec ModifierSpec

/-! ## Types of columns -/

/-- The types of fields. -/
def fieldTypes : List Str :=
  [b!"sq.AnyField", b!"sq.ArrayField", b!"sq.BinaryField", b!"sq.BooleanField", b!"sq.EnumField",
   b!"sq.StringField", b!"sq.JSONField", b!"sq.NumberField", b!"sq.TimeField", b!"sq.UUIDField"]

theorem ite_mem {c : Prop} [Decidable c] {a b : Str} (h1 : a ∈ fieldTypes) (h2 : b ∈ fieldTypes) :
    (if c then a else b) ∈ fieldTypes := by
  by_cases h : c
  · rw [if_pos h]; exact h1
  · rw [if_neg h]; exact h2

theorem getFieldType_mem {d : Dialect} {c : Column} {s : Str} (h : getFieldType d c = some s) :
    s ∈ fieldTypes := by
  unfold getFieldType at h
  by_cases h1 : c.isEnum = true
  · rw [if_pos h1] at h; simp only [Option.some.injEq] at h; subst h; decide
  · rw [if_neg h1] at h
    by_cases h2 : hasSuffix c.columnType b!"[]" = true
    · rw [if_pos h2] at h; simp only [Option.some.injEq] at h; subst h; decide
    · rw [if_neg h2] at h
      obtain ⟨r, -, rfl⟩ := Option.map_eq_some_iff.1 h
      iterate 8 (refine ite_mem (by decide) ?_)
      exact ite_mem (by decide) (by decide)

theorem fieldColumnType_default (d : Dialect) : ∀ ty ∈ fieldTypes,
    ∃ r, fieldColumnType d ty = some r ∧
      (defaultColumnType d ty ≠ [] →
        (defaultColumnType d ty = b!"TIMESTAMP" → d = .postgres ∨ d = .sqlserver) →
        r.1 = defaultColumnType d ty) := by
  cases d <;> decide

theorem fieldType_empty {d : Dialect} {c : Column} (h : TypeFits d c) (h0 : c.columnType = []) :
    fieldType d c = b!"sq.AnyField" := by
  have he : ¬ c.isEnum = true := fun e => (h.isEnum e).2 h0
  unfold fieldType getFieldType
  rw [if_neg he, h0, if_neg (by decide)]
  cases d <;> decide

theorem fieldType_integer {c : Column} (h : TypeFits .sqlite c) (h0 : c.columnType = b!"INTEGER") :
    fieldType .sqlite c = b!"sq.NumberField" := by
  have he : ¬ c.isEnum = true := fun e => absurd (h.isEnum e).1 (by decide)
  unfold fieldType getFieldType
  rw [if_neg he, h0, if_neg (by decide)]
  decide

/-! ## The attributes of a column -/

/-- The attributes that matter. -/
structure Attrs where
  type : Str := []
  notNull : Bool := false
  auto : Bool := false
  identity : Str := []
  default : Str := []
  onUpdate : Bool := false
  collation : Str := []
  generated : Bool := false

/-- The attributes of a column. -/
def attrsOf (c : Column) : Attrs :=
  { type := c.columnType, notNull := c.isNotNull, auto := c.isAutoincrement, identity := c.columnIdentity
    default := c.columnDefault, onUpdate := c.onUpdateCurrentTimestamp, collation := c.collationName
    generated := c.isGenerated }

theorem setType_ok {d : Dialect} {c : Column} (h : TypeFits d c) (c' : Column) :
    ∃ c'', setType d c.columnType c' = some c'' ∧ c''.columnName = c'.columnName ∧
      c''.ignore = c'.ignore ∧ attrsOf c'' = { attrsOf c' with type := c.columnType } := by
  obtain ⟨r, hr⟩ := Option.isSome_iff_exists.1 h.normal
  have hlen := h.length r hr
  unfold setType
  rw [hr, Option.map_some]
  by_cases h1 : r.1 ∈ [b!"VARBINARY", b!"BINARY", b!"NVARCHAR", b!"VARCHAR", b!"CHAR"]
  · rw [if_pos h1, if_pos (hlen h1)]
    exact ⟨_, rfl, rfl, rfl, rfl⟩
  · rw [if_neg h1]
    by_cases h2 : r.1 = b!"NUMERIC"
    · rw [if_pos h2]
      exact ⟨_, rfl, rfl, rfl, rfl⟩
    · rw [if_neg h2]
      exact ⟨_, rfl, rfl, rfl, rfl⟩

theorem defaultOf_unwrap {isFloat : Str → Bool} {d : Dialect} {s : Str} (h : DefaultFits isFloat d s)
    (hs : s ≠ []) : '`' ∉ s ∧ defaultOf isFloat d (unwrapBrackets s) = s := by
  rcases h with h | ⟨h0, h1, h2⟩ | ⟨h0, h1, h3, h2, h4⟩ | ⟨h0, e, rfl, h5, h1, h3, h2⟩
  · exact absurd h hs
  · have hw : wrappedInBrackets s = false := by
      rw [← Bool.not_eq_true]; simpa [wrappedInBrackets] using h2
    refine ⟨h1.2, ?_⟩
    rw [unwrapBrackets, hw, if_neg (by decide)]
    subst h0
    simp [defaultOf]
  · have hw : wrappedInBrackets s = false := by
      rw [← Bool.not_eq_true]; simpa [wrappedInBrackets] using h2
    refine ⟨h1.2, ?_⟩
    rw [unwrapBrackets, hw, if_neg (by decide)]
    unfold defaultOf
    rw [if_neg (by simp [h3]), if_neg (fun e => h4 e.1 (by rw [e.2]; simp)),
      if_neg (fun e => h4 e.1 (by rw [e.2]; simp))]
  · have hw : wrappedInBrackets e = false := by
      rw [← Bool.not_eq_true]; simpa [wrappedInBrackets] using h2
    have hl : ('(' :: e ++ [')']).getLast? = some ')' := by rw [List.getLast?_append]; rfl
    have hw2 : wrappedInBrackets ('(' :: e ++ [')']) = true := by
      rw [wrappedInBrackets, hl]; rfl
    refine ⟨?_, ?_⟩
    · simp only [List.cons_append, List.mem_cons, List.mem_append, List.not_mem_nil, or_false, not_or]
      exact ⟨by decide, h1.2, by decide⟩
    · rw [unwrapBrackets, hw2, if_pos rfl]
      have : ('(' :: e ++ [')']).tail.dropLast = e := by simp
      rw [this]
      unfold defaultOf
      rw [if_pos ⟨h0, by simp [h3]⟩, wrapBrackets, if_neg h5, hw, if_neg (by decide)]

/-! ## The state -/

/-- The state of the parser of the modifiers of a column. -/
def CS (sn tn cur : Str) (c0 : CatalogCache) (cols : List Column) (n : Str) (ex : List (Str × Str × Str))
    (a : Attrs) (K : List Constraint) (X : List Index) (st : Parser × List Str) : Prop :=
  st.2 = [] ∧ ∃ col, col.columnName = n ∧ attrsOf col = a ∧
    St sn tn c0 ex (cols ++ [col]) (K.map (keyImage sn tn cur)) (X.map (idxImage sn tn)) st.1

theorem withDefaultDialects_nil (m : Modifier) (h : m.dialects = []) : withDefaultDialects [] m = m := by
  cases m with
  | mk d n r v s =>
    change d = [] at h
    subst h
    rfl

section
variable {isFloat : Str → Bool} {dn sn tn cur n : Str} {c0 : CatalogCache} {cols : List Column}
variable {ex : List (Str × Str × Str)} {a : Attrs} {K : List Constraint} {X : List Index}

theorem attr_ok {m : Modifier} {f : Column → Column} {a' : Attrs} (hd : m.dialects = [])
    (hn : m.name ∉ [b!"type", b!"dialect", b!"index", b!"primarykey", b!"unique", b!"foreignkey", b!"references"])
    (hf : setAttr isFloat (dialectOf dn) m = some f)
    (hk : ∀ c, (f c).columnName = c.columnName ∧ (f c).ignore = c.ignore)
    (ha : ∀ c, attrsOf c = a → attrsOf (f c) = a') :
    Runs (columnModifier isFloat dn n cols.length) (CS sn tn cur c0 cols n ex a K X)
      (CS sn tn cur c0 cols n ex a' K X) [m] := by
  simp only [List.mem_cons, List.not_mem_nil, or_false, not_or] at hn
  refine Runs.single ?_
  rintro ⟨p, ds⟩ ⟨h0, col, h1, h2, h3⟩
  change ds = [] at h0
  subst h0
  refine ⟨(p.setColumn cols.length f, []), ?_, rfl, f col, (hk col).1.trans h1, ha col h2,
    h3.setColumn (f := f) (hk col).1 ((hk col).2.trans (h3.colsLive col (by simp)))⟩
  · unfold columnModifier
    dsimp only
    rw [withDefaultDialects_nil m hd, excludes_nil hd, if_neg (by decide), if_neg hn.1, if_neg hn.2.1,
      if_neg hn.2.2.1, if_neg (fun e => e.elim hn.2.2.2.1 hn.2.2.2.2.1), if_neg hn.2.2.2.2.2.1,
      if_neg hn.2.2.2.2.2.2, hf]
    rfl

/-- A modifier that is left out if nothing has to be said. -/
theorem attr_opt {b : Prop} [Decidable b] {m : Modifier} {f : Column → Column} {a' : Attrs}
    (hd : m.dialects = [])
    (hn : m.name ∉ [b!"type", b!"dialect", b!"index", b!"primarykey", b!"unique", b!"foreignkey", b!"references"])
    (hf : b → setAttr isFloat (dialectOf dn) m = some f)
    (hk : ∀ c, (f c).columnName = c.columnName ∧ (f c).ignore = c.ignore)
    (ha : b → ∀ c, attrsOf c = a → attrsOf (f c) = a') (ha' : ¬ b → a = a') :
    Runs (columnModifier isFloat dn n cols.length) (CS sn tn cur c0 cols n ex a K X)
      (CS sn tn cur c0 cols n ex a' K X) (if b then [m] else []) := by
  by_cases h : b
  · rw [if_pos h]; exact attr_ok hd hn (hf h) hk (ha h)
  · rw [if_neg h, ← ha' h]; exact Runs.nil fun _ h => h

end

/-! ## Keys and indexes -/

/-- The state has these keys and indexes; a key that is not in the state is added by `f`. -/
theorem keys_run {σ α : Type} {step : σ → α → Option σ} {f : Constraint → α} {t : Table}
    (Q : List Constraint → List Index → σ → Prop) {L K : List Constraint} {X : List Index}
    (h : ∀ k ∈ L, ∀ K X s, Q K X s → k.constraintName ∉ K.map (·.constraintName) →
      ((X ++ idxOf t k).map (·.indexName)).Nodup →
      ∃ s', step s (f k) = some s' ∧ Q (K ++ [k]) (X ++ idxOf t k) s')
    (hK : ((K ++ L).map (·.constraintName)).Nodup)
    (hX : ((X ++ L.flatMap (idxOf t)).map (·.indexName)).Nodup) :
    Runs step (Q K X) (Q (K ++ L) (X ++ L.flatMap (idxOf t))) (L.map f) := by
  have := Runs.list (step := step) (f := f)
    (fun pre => Q (K ++ pre) (X ++ pre.flatMap (idxOf t))) L (by
      intro pre k post e s hs
      have h1 := h k (by rw [e]; simp) _ _ s hs (by
          intro hm
          rw [e, ← List.append_assoc, List.map_append, List.map_cons, List.nodup_append] at hK
          exact hK.2.2 _ hm _ (by simp) rfl) (by
          rw [e, List.flatMap_append, List.flatMap_cons, ← List.append_assoc, ← List.append_assoc,
            List.map_append, List.nodup_append] at hX
          exact hX.1)
      rw [List.append_assoc, List.append_assoc] at h1
      rw [List.flatMap_append, List.flatMap_singleton]
      exact h1)
  rw [List.append_nil, List.flatMap_nil, List.append_nil] at this
  exact this

theorem indexes_run {σ α : Type} {step : σ → α → Option σ} {f : Index → α}
    (Q : List Index → σ → Prop) {L X : List Index}
    (h : ∀ x ∈ L, ∀ X s, Q X s → x.indexName ∉ X.map (·.indexName) →
      ∃ s', step s (f x) = some s' ∧ Q (X ++ [x]) s')
    (hX : ((X ++ L).map (·.indexName)).Nodup) :
    Runs step (Q X) (Q (X ++ L)) (L.map f) := by
  have := Runs.list (step := step) (f := f) (fun pre => Q (X ++ pre)) L (by
      intro pre k post e s hs
      have h1 := h k (by rw [e]; simp) _ s hs (by
          intro hm
          rw [e, ← List.append_assoc, List.map_append, List.map_cons, List.nodup_append] at hX
          exact hX.2.2 _ hm _ (by simp) rfl)
      rw [List.append_assoc] at h1
      exact h1)
  rw [List.append_nil] at this
  exact this

section
variable {isFloat : Str → Bool} {cat : Catalog} {t : Table} {dn : Str}

theorem fullMod_key (cur : Str) (X : List Index) {k : Constraint}
    (h : k.constraintType = PRIMARY_KEY ∨ k.constraintType = UNIQUE) :
    fullMod cur X k = .mk [] (kindName k.constraintType) [] (join b!"," k.columns) (deferModifier k) := by
  unfold fullMod addIndexes keyMod keySubs
  rcases h with h | h
  · rw [h, if_neg (show ¬ PRIMARY_KEY = FOREIGN_KEY by decide)]; rfl
  · rw [h, if_neg (show ¬ UNIQUE = FOREIGN_KEY by decide)]; rfl

theorem idxOf_key {k : Constraint} (h : k.constraintType = PRIMARY_KEY ∨ k.constraintType = UNIQUE) :
    idxOf t k = [] := by
  unfold idxOf
  rcases h with h | h
  · rw [h, if_neg (show ¬ PRIMARY_KEY = FOREIGN_KEY by decide)]
  · rw [h, if_neg (show ¬ UNIQUE = FOREIGN_KEY by decide)]

variable (hf : TableFits isFloat (dialectOf dn) cat t)
variable (href : ∀ k ∈ keysOf t, k.constraintType = FOREIGN_KEY → RefNames cat k)
include hf

theorem fullMod_fkey {k : Constraint} (hk : k ∈ keysOf t) (h : k.constraintType = FOREIGN_KEY) :
    fullMod cat.currentSchema t.indexes k = .mk [] b!"foreignkey" [] (join b!"," k.columns)
      (raw b!"references" (referencesText cat.currentSchema k) :: restSubs k (idxOf t k)) := by
  have hx : (t.indexes.map indexModifier).filter (fun x => x.value == join b!"," k.columns) =
      (idxOf t k).map indexModifier := by
    unfold idxOf
    rw [if_pos h, List.filter_map]
    congr 1
    refine List.filter_congr fun x hx => ?_
    rw [Bool.eq_iff_iff]
    simp only [Function.comp_apply, beq_iff_eq]
    constructor
    · intro e
      exact join_inj (indexColumns_go hf hx).1 (keyColumns_go hf hk).1 (indexColumns_comma hf hx)
        (keyColumns_comma hf hk) e
    · intro e; rw [← e]; rfl
  unfold fullMod addIndexes
  rw [if_pos (by rw [keyMod, h]; rfl)]
  show Modifier.mk [] (kindName k.constraintType) [] (join b!"," k.columns)
    (keySubs cat.currentSchema k ++ ((t.indexes.map indexModifier).filter
      (fun x => x.value == join b!"," k.columns)).map noValue) = _
  rw [hx, keySubs, if_pos h, h, restSubs, List.map_map]
  simp
  rfl

theorem idxOf_ok {k : Constraint} : ∀ x ∈ idxOf t k, IndexFits (dialectOf dn) t x ∧
    (∀ n ∈ x.columns, GoName n) ∧ x.columns = k.columns ∧ Clean (indexModifier x) := by
  intro x hx
  unfold idxOf at hx
  split at hx
  · obtain ⟨h1, h2⟩ := List.mem_filter.1 hx
    exact ⟨hf.indexes x h1, (indexColumns_go hf h1).2, eq_of_beq h2, clean_indexOf hf h1⟩
  · simp at hx

omit hf in
theorem keysOn_mem {ty n : Str} {k : Constraint} (hk : k ∈ keysOn t ty n) :
    k ∈ keysOf t ∧ k.constraintType = ty ∧ k.columns = [n] := by
  obtain ⟨h1, h2⟩ := List.mem_filter.1 hk
  rw [Bool.and_eq_true] at h2
  exact ⟨h1, eq_of_beq h2.1, eq_of_beq h2.2⟩

variable {sn n : Str} {c0 : CatalogCache} {cols : List Column}
variable {ex : List (Str × Str × Str)} {a : Attrs} {K : List Constraint} {X : List Index}

omit hf in
theorem keyImage_names (sn tn cur : Str) (K : List Constraint) :
    (K.map (keyImage sn tn cur)).map (·.constraintName) = K.map (·.constraintName) := by
  rw [List.map_map]; rfl

include href in
theorem col_key {ty : Str} (hty : ty = PRIMARY_KEY ∨ ty = UNIQUE) {k : Constraint} (hk : k ∈ keysOn t ty n)
    {st : Parser × List Str} (hst : CS sn t.tableName cat.currentSchema c0 cols n ex a K X st)
    (hfr : k.constraintName ∉ K.map (·.constraintName)) :
    ∃ st', columnModifier isFloat dn n cols.length st
        (flat (noValue (fullMod cat.currentSchema t.indexes k))) = some st' ∧
      CS sn t.tableName cat.currentSchema c0 cols n ex a (K ++ [k]) (X ++ idxOf t k) st' := by
  obtain ⟨hk1, hk2, hk3⟩ := keysOn_mem hk
  have hty' : k.constraintType = PRIMARY_KEY ∨ k.constraintType = UNIQUE := by rw [hk2]; exact hty
  have hcl := clean_noValue (clean_full hf href hk1)
  rw [fullMod_key _ _ hty'] at hcl ⊢
  obtain ⟨p, ds⟩ := st
  obtain ⟨h0, col, h1, h2, h3⟩ := hst
  change ds = [] at h0
  subst h0
  obtain ⟨p', e, h4⟩ := key_ok (dn := dn) h3 (hf.keys k hk1) (keyColumns_go hf hk1).2 rfl hty' hcl
    (columns := [n]) (Or.inl ⟨rfl, hk3.symm⟩) (by rw [keyImage_names]; exact hfr)
  refine ⟨(p', []), ?_, rfl, col, h1, h2, ?_⟩
  · have hnm : (flat (noValue (.mk [] (kindName k.constraintType) [] (join b!"," k.columns) (deferModifier k)))).name
        = kindName k.constraintType := rfl
    unfold columnModifier
    dsimp only
    rw [withDefaultDialects_nil _ rfl, excludes_nil rfl, if_neg (by decide), hnm]
    have hne : kindName k.constraintType ≠ b!"type" ∧ kindName k.constraintType ≠ b!"dialect" ∧
        kindName k.constraintType ≠ b!"index" ∧
        (kindName k.constraintType = b!"primarykey" ∨ kindName k.constraintType = b!"unique") := by
      rcases hty' with h | h <;> rw [h] <;> decide
    rw [if_neg hne.1, if_neg hne.2.1, if_neg hne.2.2.1, if_pos hne.2.2.2]
    have e' : parsePrimaryKeyUniqueModifier dn (flat (noValue (.mk [] (kindName k.constraintType) []
      (join b!"," k.columns) (deferModifier k)))) [n] p = some p' := e
    rw [e']
    rfl
  · rw [idxOf_key hty', List.append_nil, List.map_append]
    exact h4

include href in
theorem col_ref {k : Constraint} (hn : GoName n) (hk : k ∈ keysOn t FOREIGN_KEY n)
    {st : Parser × List Str} (hst : CS sn t.tableName cat.currentSchema c0 cols n ex a K X st)
    (hfr : k.constraintName ∉ K.map (·.constraintName))
    (hnd : ((X ++ idxOf t k).map (·.indexName)).Nodup) :
    ∃ st', columnModifier isFloat dn n cols.length st
        (flat (asReferences (fullMod cat.currentSchema t.indexes k))) = some st' ∧
      CS sn t.tableName cat.currentSchema c0 cols n ex a (K ++ [k]) (X ++ idxOf t k) st' := by
  obtain ⟨hk1, hk2, hk3⟩ := keysOn_mem hk
  have hcl := clean_asReferences hf href hk1 hk2
  rw [fullMod_fkey hf hk1 hk2] at hcl ⊢
  obtain ⟨p, ds⟩ := st
  obtain ⟨h0, col, h1, h2, h3⟩ := hst
  change ds = [] at h0
  subst h0
  obtain ⟨p', e, h4⟩ := references_ok (dn := dn) (cat := cat) h3 (hf.keys k hk1) hn hk3 rfl hk2
    (href k hk1 hk2) (idxOf_ok hf) hcl (by rw [keyImage_names]; exact hfr)
    (by rw [idxImage_names, ← List.map_append]; exact hnd)
  refine ⟨(p', []), ?_, rfl, col, h1, h2, ?_⟩
  · unfold columnModifier
    dsimp only
    rw [withDefaultDialects_nil _ rfl, excludes_nil rfl]
    show (parseReferencesModifier dn (flat (.mk [] b!"references" []
        (referencesText cat.currentSchema k) (restSubs k (idxOf t k)))) n p).map _ = _
    rw [e]
    rfl
  · rw [List.map_append, List.map_append]
    exact h4

theorem col_index {x : Index} (hx : x ∈ t.indexes) (hxc : x.columns = [n])
    {st : Parser × List Str} (hst : CS sn t.tableName cat.currentSchema c0 cols n ex a K X st)
    (hfr : x.indexName ∉ X.map (·.indexName)) :
    ∃ st', columnModifier isFloat dn n cols.length st
        (flat (noValue (indexModifier x))) = some st' ∧
      CS sn t.tableName cat.currentSchema c0 cols n ex a K (X ++ [x]) st' := by
  have hcl := clean_noValue (clean_indexOf hf hx)
  rw [noValue_index] at hcl ⊢
  obtain ⟨p, ds⟩ := st
  obtain ⟨h0, col, h1, h2, h3⟩ := hst
  change ds = [] at h0
  subst h0
  obtain ⟨p', e, h4⟩ := index_ok (dn := dn) h3 (hf.indexes x hx) (indexColumns_go hf hx).2 rfl hcl
    (columns := [n]) (Or.inl ⟨rfl, hxc.symm⟩) (by rw [idxImage_names]; exact hfr)
  refine ⟨(p', []), ?_, rfl, col, h1, h2, ?_⟩
  · unfold columnModifier
    dsimp only
    rw [withDefaultDialects_nil _ rfl, excludes_nil rfl]
    show (parseIndexModifier dn (flat (.mk [] b!"index" [] [] (indexSubs x))) [n] p).map _ = _
    rw [e]
    rfl
  · rw [List.map_append]
    exact h4

end

end Sqddl.Structs
