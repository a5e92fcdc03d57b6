import Verif.Lemmas.StructColumn

/-!
# Reading the fields of a struct
-/

namespace Sqddl.Structs
open Go StructSpec ModifierSpec

/-- The columns whose type is written. -/
def colEx (sn : Str) (d : Dialect) (t : Table) (c : Column) : List (Str × Str × Str) :=
  if typeMods d t (fieldType d c) c = [] then [] else [(sn, t.tableName, c.columnName)]

/-- The type of a column before the primary key is looked at. -/
def parsedType (d : Dialect) (t : Table) (c : Column) : Str :=
  if rowid d t c = true ∧ c.isAutoincrement = false then b!"INT" else c.columnType

/-- The attributes that are read. -/
def parsedAttrs (d : Dialect) (cat : Catalog) (t : Table) (c : Column) : Attrs :=
  { type := parsedType d t c, notNull := c.isNotNull, auto := c.isAutoincrement
    identity := c.columnIdentity, default := c.columnDefault, onUpdate := c.onUpdateCurrentTimestamp
    collation := if c.collationName = cat.defaultCollation then [] else c.collationName
    generated := decide (c.isGenerated = true ∨ c.generatedExpr ≠ []) }

/-- The keys that are written at a column. -/
def colKeys (t : Table) (c : Column) : List Constraint :=
  keysOn t PRIMARY_KEY c.columnName ++ keysOn t UNIQUE c.columnName ++ keysOn t FOREIGN_KEY c.columnName

/-- The indexes that are written at a column. -/
def colIndexes (t : Table) (c : Column) : List Index :=
  (keysOn t FOREIGN_KEY c.columnName).flatMap (idxOf t) ++
  (if keysOn t FOREIGN_KEY c.columnName = [] then t.indexes.filter fun x => x.columns == [c.columnName] else [])

theorem keysOn_idx {t : Table} {ty n : Str} (hty : ty = PRIMARY_KEY ∨ ty = UNIQUE) :
    (keysOn t ty n).flatMap (idxOf t) = [] := by
  rw [List.flatMap_eq_nil_iff]
  intro k hk
  exact idxOf_key (by rw [(keysOn_mem hk).2.1]; exact hty)

section
variable {isFloat : Str → Bool} {cat : Catalog} {t : Table} {dn : Str} {c : Column}
variable (hf : TableFits isFloat (dialectOf dn) cat t) (hc : c ∈ t.columns)
include hf hc

theorem rowid_type (hr : rowid (dialectOf dn) t c = true) :
    dialectOf dn = .sqlite ∧ c.columnType = b!"INTEGER" := by
  unfold rowid at hr
  rw [Bool.and_eq_true, Bool.and_eq_true] at hr
  have hd : dialectOf dn = .sqlite := eq_of_beq hr.1.1
  refine ⟨hd, ?_⟩
  cases hl : keysOn t PRIMARY_KEY c.columnName with
  | nil => rw [hl] at hr; simp at hr
  | cons k l =>
    have hk := keysOn_mem (t := t) (ty := PRIMARY_KEY) (n := c.columnName) (k := k) (by rw [hl]; simp)
    exact (hf.pkeyType hd k (mem_keysOf.1 hk.1).1 hk.2.1 c hc hk.2.2).2 (eq_of_beq hr.2)

/-- The type of the column after the modifier `type`. -/
theorem startType : ∃ r, fieldColumnType (dialectOf dn) (fieldType (dialectOf dn) c) = some r ∧
    (typeMods (dialectOf dn) t (fieldType (dialectOf dn) c) c = [] →
      r.1 = if rowid (dialectOf dn) t c = true then b!"INT" else c.columnType) := by
  have htf := (hf.columns c hc).type
  have hmem := getFieldType_mem (getFieldType_some hf hc)
  obtain ⟨r, hr, hr2⟩ := fieldColumnType_default (dialectOf dn) _ hmem
  refine ⟨r, hr, fun h => ?_⟩
  by_cases hrow : rowid (dialectOf dn) t c = true
  · rw [if_pos hrow]
    obtain ⟨e1, e2⟩ := rowid_type hf hc hrow
    rw [e1] at hr htf
    rw [fieldType_integer htf e2] at hr
    have : fieldColumnType .sqlite b!"sq.NumberField" = some (b!"INT", []) := by decide
    rw [this] at hr
    simp only [Option.some.injEq] at hr
    rw [← hr]
  · rw [if_neg hrow]
    unfold typeMods at h
    by_cases h0 : c.columnType = []
    · rw [fieldType_empty htf h0] at hr
      have : fieldColumnType (dialectOf dn) b!"sq.AnyField" = some ([], []) := rfl
      rw [this] at hr
      simp only [Option.some.injEq] at hr
      rw [← hr, h0]
    · have hd : c.columnType = defaultColumnType (dialectOf dn) (fieldType (dialectOf dn) c) := by
        refine Classical.not_not.1 fun hne => ?_
        rw [if_pos ⟨h0, hne, by simp [hrow]⟩] at h
        simp at h
      rw [hr2 (by rw [← hd]; exact h0) (by rw [← hd]; exact htf.notTimestamp), hd]

variable {sn : Str} {c0 : CatalogCache} {cols : List Column}
variable {ex : List (Str × Str × Str)} {K : List Constraint} {X : List Index}

theorem type_ok {ty : Str} (hty : typeMods (dialectOf dn) t (fieldType (dialectOf dn) c) c = [] →
      ty = if rowid (dialectOf dn) t c = true then b!"INT" else c.columnType) :
    Runs (columnModifier isFloat dn c.columnName cols.length)
      (CS sn t.tableName cat.currentSchema c0 cols c.columnName ex { type := ty } K X)
      (CS sn t.tableName cat.currentSchema c0 cols c.columnName (ex ++ colEx sn (dialectOf dn) t c)
        { type := if rowid (dialectOf dn) t c = true then b!"INT" else c.columnType } K X)
      ((typeMods (dialectOf dn) t (fieldType (dialectOf dn) c) c).map flat) := by
  by_cases h : typeMods (dialectOf dn) t (fieldType (dialectOf dn) c) c = []
  · rw [colEx, if_pos h, h, hty h, List.append_nil]
    exact Runs.nil fun _ h => h
  · rw [colEx, if_neg h]
    have h' : c.columnType ≠ [] ∧ c.columnType ≠ defaultColumnType (dialectOf dn)
        (fieldType (dialectOf dn) c) ∧ (!rowid (dialectOf dn) t c) = true := by
      refine Classical.not_not.1 fun hn => h ?_
      unfold typeMods
      rw [if_neg hn]
    have hrow : ¬ rowid (dialectOf dn) t c = true := by simpa using h'.2.2
    unfold typeMods
    rw [if_pos h', List.map_singleton, flat_raw, if_neg hrow]
    refine Runs.single ?_
    rintro ⟨p, ds⟩ ⟨h0, col, h1, h2, h3⟩
    change ds = [] at h0
    subst h0
    obtain ⟨c'', e, en, ei, e2⟩ := setType_ok (hf.columns c hc).type col
    have hcol : p.table.columns[cols.length]? = some col := by rw [h3.table]; simp
    refine ⟨({ p.setColumn cols.length (fun _ => c'') with
        explicit := p.explicit ++ [(p.table.tableSchema, p.table.tableName, c.columnName)] }, []), ?_, rfl,
      c'', en.trans h1, ?_, ?_⟩
    · unfold columnModifier
      dsimp only
      rw [withDefaultDialects_nil _ rfl, excludes_nil rfl]
      show (p.table.columns[cols.length]?).bind (fun c' => (setType (dialectOf dn) c.columnType c').map _) = _
      rw [hcol, Option.bind_some, e]
      rfl
    · rw [e2, h2]
    · have h4 := h3.setColumn (f := fun _ => c'') en (ei.trans (h3.colsLive col (by simp)))
      have htab : p.table.tableName = t.tableName := by rw [h3.table]
      have htab2 : p.table.tableSchema = sn := by rw [h3.table]
      exact ⟨h4.table, h4.ok, h4.block, h4.colsLive, h4.ksLive, h4.xsLive, h4.frame,
        by show p.explicit ++ [_] = _; rw [h3.explicit, htab, htab2]⟩

theorem auto_ok {a : Attrs} (ha : a.auto = false)
    (hty : a.type = if rowid (dialectOf dn) t c = true then b!"INT" else c.columnType) :
    Runs (columnModifier isFloat dn c.columnName cols.length)
      (CS sn t.tableName cat.currentSchema c0 cols c.columnName ex a K X)
      (CS sn t.tableName cat.currentSchema c0 cols c.columnName ex
        { a with type := parsedType (dialectOf dn) t c, auto := c.isAutoincrement } K X)
      ((autoModifier (dialectOf dn) c).map flat) := by
  unfold autoModifier parsedType
  by_cases h : c.isAutoincrement = true
  · rw [if_pos h, if_neg (by rw [h]; simp), h]
    rcases (hf.columns c hc).type.autoincrement h with hd | ⟨hd, hi⟩
    · have hrow : ¬ rowid (dialectOf dn) t c = true := by rw [hd]; simp [rowid]
      rw [if_neg hrow] at hty
      rw [hd]
      show Runs _ _ _ [flat (flag b!"auto_increment")]
      rw [flat_flag]
      refine attr_ok (f := fun c => { c with isAutoincrement := true }) rfl (by decide) ?_ (fun _ => ⟨rfl, rfl⟩) ?_
      · rw [hd]; rfl
      · rintro x rfl; rw [← hty]; rfl
    · rw [hd]
      show Runs _ _ _ [flat (flag b!"autoincrement")]
      rw [flat_flag]
      refine attr_ok (f := fun c => { c with columnType := b!"INTEGER", isAutoincrement := true }) rfl (by decide) ?_
        (fun _ => ⟨rfl, rfl⟩) ?_
      · rw [hd]; rfl
      · rintro x rfl; rw [hi]; rfl
  · rw [if_neg h]
    rw [Bool.not_eq_true] at h
    have : (if rowid (dialectOf dn) t c = true ∧ c.isAutoincrement = false then b!"INT" else c.columnType) =
        if rowid (dialectOf dn) t c = true then b!"INT" else c.columnType := by
      rw [h]; simp
    rw [this, ← hty, h, ← ha]
    exact Runs.nil fun _ h => h

theorem identity_ok {a : Attrs} (ha : a.identity = []) :
    Runs (columnModifier isFloat dn c.columnName cols.length)
      (CS sn t.tableName cat.currentSchema c0 cols c.columnName ex a K X)
      (CS sn t.tableName cat.currentSchema c0 cols c.columnName ex { a with identity := c.columnIdentity } K X)
      ((identityModifier (dialectOf dn) c).map flat) := by
  rcases (hf.columns c hc).identity with h | ⟨hd, h⟩ | ⟨hd, h⟩
  · have : identityModifier (dialectOf dn) c = [] := by
      unfold identityModifier
      rw [h]
      split
      · rw [if_neg (by decide), if_neg (by decide)]
      · rw [if_neg (by decide)]
      · rfl
    rw [this, h, ← ha]
    exact Runs.nil fun _ h => h
  · simp only [List.mem_cons, List.not_mem_nil, or_false] at h
    unfold identityModifier
    rw [hd]
    rcases h with h | h
    · rw [h]
      show Runs _ _ _ [flat (flag b!"identity")]
      rw [flat_flag]
      refine attr_ok (f := fun c => { c with columnIdentity := DEFAULT_IDENTITY }) rfl (by decide) ?_
        (fun _ => ⟨rfl, rfl⟩) ?_
      · rw [hd]; rfl
      · rintro x rfl; rfl
    · rw [h]
      show Runs _ _ _ [flat (flag b!"alwaysidentity")]
      rw [flat_flag]
      refine attr_ok (f := fun c => { c with columnIdentity := ALWAYS_IDENTITY }) rfl (by decide) ?_
        (fun _ => ⟨rfl, rfl⟩) ?_
      · rw [hd]; rfl
      · rintro x rfl; rfl
  · unfold identityModifier
    rw [hd, h]
    show Runs _ _ _ [flat (flag b!"identity")]
    rw [flat_flag]
    refine attr_ok (f := fun c => { c with columnIdentity := IDENTITY }) rfl (by decide) ?_
      (fun _ => ⟨rfl, rfl⟩) ?_
    · rw [hd]; rfl
    · rintro x rfl; rfl

theorem default_ok {a : Attrs} (ha : a.default = []) :
    Runs (columnModifier isFloat dn c.columnName cols.length)
      (CS sn t.tableName cat.currentSchema c0 cols c.columnName ex a K X)
      (CS sn t.tableName cat.currentSchema c0 cols c.columnName ex { a with default := c.columnDefault } K X)
      ((defaultModifier c).map flat) := by
  unfold defaultModifier
  by_cases h : c.columnDefault = []
  · rw [if_neg (fun e => e.1 h), h, ← ha]
    exact Runs.nil fun _ h => h
  · obtain ⟨h1, h2⟩ := defaultOf_unwrap (hf.columns c hc).default h
    rw [if_pos ⟨h, h1⟩, List.map_singleton, flat_raw]
    refine attr_ok (f := fun x => { x with columnDefault := defaultOf isFloat (dialectOf dn) (unwrapBrackets c.columnDefault) })
      rfl (show b!"default" ∉ _ by decide) rfl (fun _ => ⟨rfl, rfl⟩) ?_
    rintro x rfl
    rw [h2]
    rfl

omit hf hc in
theorem opt_flat {b : Prop} [Decidable b] {m : Modifier} (h : flat m = m) :
    (if b then [m] else []).map flat = if b then [m] else [] := by
  split
  · rw [List.map_singleton, h]
  · rfl

variable (href : ∀ k ∈ keysOf t, k.constraintType = FOREIGN_KEY → RefNames cat k)

include href in
/-- Reading the modifiers of a column. -/
theorem column_ok {ty : Str} (hty : typeMods (dialectOf dn) t (fieldType (dialectOf dn) c) c = [] →
      ty = if rowid (dialectOf dn) t c = true then b!"INT" else c.columnType)
    (hK : ((K ++ colKeys t c).map (·.constraintName)).Nodup)
    (hX : ((X ++ colIndexes t c).map (·.indexName)).Nodup) :
    Runs (columnModifier isFloat dn c.columnName cols.length)
      (CS sn t.tableName cat.currentSchema c0 cols c.columnName ex { type := ty } K X)
      (CS sn t.tableName cat.currentSchema c0 cols c.columnName (ex ++ colEx sn (dialectOf dn) t c)
        (parsedAttrs (dialectOf dn) cat t c) (K ++ colKeys t c) (X ++ colIndexes t c))
      ((columnMods (dialectOf dn) cat t (fieldType (dialectOf dn) c) c).map flat) := by
  have hcf := hf.columns c hc
  unfold colKeys at *
  unfold colIndexes at *
  have hK3 := hK
  rw [← List.append_assoc] at hK3
  have hK2 : ((K ++ (keysOn t PRIMARY_KEY c.columnName ++ keysOn t UNIQUE c.columnName)).map
      (·.constraintName)).Nodup := by
    rw [List.map_append, List.nodup_append] at hK3; exact hK3.1
  rw [← List.append_assoc] at hK2
  have hK1 : ((K ++ keysOn t PRIMARY_KEY c.columnName).map (·.constraintName)).Nodup := by
    have := hK2
    rw [List.map_append, List.nodup_append] at this; exact this.1
  have hX1 : ((X ++ (keysOn t FOREIGN_KEY c.columnName).flatMap (idxOf t)).map (·.indexName)).Nodup := by
    have := hX
    rw [← List.append_assoc, List.map_append, List.nodup_append] at this; exact this.1
  have hX0 : (X.map (·.indexName)).Nodup := by
    have := hX1
    rw [List.map_append, List.nodup_append] at this; exact this.1
  have s1 := type_ok (X := X) (K := K) (c0 := c0) (cols := cols) (ex := ex) (sn := sn) hf hc hty
  have s2 : Runs (columnModifier isFloat dn c.columnName cols.length) _ _ _ :=
    attr_opt (isFloat := isFloat) (dn := dn) (sn := sn) (tn := t.tableName) (cur := cat.currentSchema)
      (n := c.columnName) (c0 := c0) (cols := cols) (ex := ex ++ colEx sn (dialectOf dn) t c) (K := K) (X := X)
      (a := { type := if rowid (dialectOf dn) t c = true then b!"INT" else c.columnType })
      (a' := { type := if rowid (dialectOf dn) t c = true then b!"INT" else c.columnType, notNull := c.isNotNull })
      (b := c.isNotNull = true) (m := flag b!"notnull") (f := fun c => { c with isNotNull := true })
      rfl (by decide) (fun _ => rfl) (fun _ => ⟨rfl, rfl⟩)
      (fun h x hx => by rw [h]; rw [show attrsOf { x with isNotNull := true } = { attrsOf x with notNull := true } from rfl, hx])
      (fun h => by rw [Bool.not_eq_true] at h; rw [h])
  have s3 := keys_run (step := columnModifier isFloat dn c.columnName cols.length) (t := t)
    (f := fun k => flat (noValue (fullMod cat.currentSchema t.indexes k)))
    (CS sn t.tableName cat.currentSchema c0 cols c.columnName (ex ++ colEx sn (dialectOf dn) t c)
      { type := if rowid (dialectOf dn) t c = true then b!"INT" else c.columnType, notNull := c.isNotNull })
    (L := keysOn t PRIMARY_KEY c.columnName) (K := K) (X := X)
    (fun k hk K X s hs hfr _ => col_key hf href (Or.inl rfl) hk hs hfr) hK1
    (by rw [keysOn_idx (Or.inl rfl), List.append_nil]; exact hX0)
  rw [keysOn_idx (Or.inl rfl), List.append_nil] at s3
  have s4 := keys_run (step := columnModifier isFloat dn c.columnName cols.length) (t := t)
    (f := fun k => flat (noValue (fullMod cat.currentSchema t.indexes k)))
    (CS sn t.tableName cat.currentSchema c0 cols c.columnName (ex ++ colEx sn (dialectOf dn) t c)
      { type := if rowid (dialectOf dn) t c = true then b!"INT" else c.columnType, notNull := c.isNotNull })
    (L := keysOn t UNIQUE c.columnName) (K := K ++ keysOn t PRIMARY_KEY c.columnName) (X := X)
    (fun k hk K X s hs hfr _ => col_key hf href (Or.inr rfl) hk hs hfr) hK2
    (by rw [keysOn_idx (Or.inr rfl), List.append_nil]; exact hX0)
  rw [keysOn_idx (Or.inr rfl), List.append_nil] at s4
  have s5 := keys_run (step := columnModifier isFloat dn c.columnName cols.length) (t := t)
    (f := fun k => flat (asReferences (fullMod cat.currentSchema t.indexes k)))
    (CS sn t.tableName cat.currentSchema c0 cols c.columnName (ex ++ colEx sn (dialectOf dn) t c)
      { type := if rowid (dialectOf dn) t c = true then b!"INT" else c.columnType, notNull := c.isNotNull })
    (L := keysOn t FOREIGN_KEY c.columnName)
    (K := K ++ keysOn t PRIMARY_KEY c.columnName ++ keysOn t UNIQUE c.columnName) (X := X)
    (fun k hk K X s hs hfr hnd => col_ref hf href hcf.name hk hs hfr hnd)
    (by simpa only [List.append_assoc] using hK) hX1
  have s6 := auto_ok (X := X ++ (keysOn t FOREIGN_KEY c.columnName).flatMap (idxOf t))
    (K := K ++ keysOn t PRIMARY_KEY c.columnName ++ keysOn t UNIQUE c.columnName ++ keysOn t FOREIGN_KEY c.columnName)
    (c0 := c0) (cols := cols) (ex := ex ++ colEx sn (dialectOf dn) t c) (sn := sn) hf hc
    (a := { type := if rowid (dialectOf dn) t c = true then b!"INT" else c.columnType, notNull := c.isNotNull }) rfl rfl
  have s7 := identity_ok (X := X ++ (keysOn t FOREIGN_KEY c.columnName).flatMap (idxOf t))
    (K := K ++ keysOn t PRIMARY_KEY c.columnName ++ keysOn t UNIQUE c.columnName ++ keysOn t FOREIGN_KEY c.columnName)
    (c0 := c0) (cols := cols) (ex := ex ++ colEx sn (dialectOf dn) t c) (sn := sn) hf hc
    (a := { type := parsedType (dialectOf dn) t c, notNull := c.isNotNull, auto := c.isAutoincrement }) rfl
  have s8 := default_ok (X := X ++ (keysOn t FOREIGN_KEY c.columnName).flatMap (idxOf t))
    (K := K ++ keysOn t PRIMARY_KEY c.columnName ++ keysOn t UNIQUE c.columnName ++ keysOn t FOREIGN_KEY c.columnName)
    (c0 := c0) (cols := cols) (ex := ex ++ colEx sn (dialectOf dn) t c) (sn := sn) hf hc
    (a := { type := parsedType (dialectOf dn) t c, notNull := c.isNotNull, auto := c.isAutoincrement,
            identity := c.columnIdentity }) rfl
  have s9 : Runs (columnModifier isFloat dn c.columnName cols.length) _ _ _ :=
    attr_opt (isFloat := isFloat) (dn := dn) (sn := sn) (tn := t.tableName) (cur := cat.currentSchema)
      (n := c.columnName) (c0 := c0) (cols := cols) (ex := ex ++ colEx sn (dialectOf dn) t c)
      (X := X ++ (keysOn t FOREIGN_KEY c.columnName).flatMap (idxOf t))
      (K := K ++ keysOn t PRIMARY_KEY c.columnName ++ keysOn t UNIQUE c.columnName ++ keysOn t FOREIGN_KEY c.columnName)
      (a := { type := parsedType (dialectOf dn) t c, notNull := c.isNotNull, auto := c.isAutoincrement,
              identity := c.columnIdentity, default := c.columnDefault })
      (a' := { type := parsedType (dialectOf dn) t c, notNull := c.isNotNull, auto := c.isAutoincrement,
               identity := c.columnIdentity, default := c.columnDefault, onUpdate := c.onUpdateCurrentTimestamp })
      (b := c.onUpdateCurrentTimestamp = true) (m := flag b!"onupdatecurrenttimestamp")
      (f := fun c => if dialectOf dn = .mysql then { c with onUpdateCurrentTimestamp := true } else c)
      rfl (by decide) (fun _ => rfl) (fun _ => by split <;> exact ⟨rfl, rfl⟩)
      (fun h x hx => by
        rw [h, if_pos (hcf.onUpdate h)]
        rw [show attrsOf { x with onUpdateCurrentTimestamp := true } = { attrsOf x with onUpdate := true } from rfl, hx])
      (fun h => by rw [Bool.not_eq_true] at h; rw [h])
  have s10 : Runs (columnModifier isFloat dn c.columnName cols.length) _ _ _ :=
    attr_opt (isFloat := isFloat) (dn := dn) (sn := sn) (tn := t.tableName) (cur := cat.currentSchema)
      (n := c.columnName) (c0 := c0) (cols := cols) (ex := ex ++ colEx sn (dialectOf dn) t c)
      (X := X ++ (keysOn t FOREIGN_KEY c.columnName).flatMap (idxOf t))
      (K := K ++ keysOn t PRIMARY_KEY c.columnName ++ keysOn t UNIQUE c.columnName ++ keysOn t FOREIGN_KEY c.columnName)
      (a := { type := parsedType (dialectOf dn) t c, notNull := c.isNotNull, auto := c.isAutoincrement,
              identity := c.columnIdentity, default := c.columnDefault, onUpdate := c.onUpdateCurrentTimestamp })
      (a' := { type := parsedType (dialectOf dn) t c, notNull := c.isNotNull, auto := c.isAutoincrement,
               identity := c.columnIdentity, default := c.columnDefault, onUpdate := c.onUpdateCurrentTimestamp,
               collation := if c.collationName = cat.defaultCollation then [] else c.collationName })
      (b := c.collationName ≠ [] ∧ c.collationName ≠ cat.defaultCollation) (m := raw b!"collate" c.collationName)
      (f := fun x => { x with collationName := c.collationName })
      rfl (show b!"collate" ∉ _ by decide) (fun _ => rfl) (fun _ => ⟨rfl, rfl⟩)
      (fun h x hx => by
        rw [if_neg h.2]
        rw [show attrsOf { x with collationName := c.collationName } = { attrsOf x with collation := c.collationName } from rfl, hx])
      (fun h => by
        have : (if c.collationName = cat.defaultCollation then [] else c.collationName) = ([] : Str) := by
          split
          · rfl
          · rename_i h2; exact Classical.not_not.1 fun h1 => h ⟨h1, h2⟩
        rw [this])
  have s11 : Runs (columnModifier isFloat dn c.columnName cols.length)
      (CS sn t.tableName cat.currentSchema c0 cols c.columnName (ex ++ colEx sn (dialectOf dn) t c)
        { type := parsedType (dialectOf dn) t c, notNull := c.isNotNull, auto := c.isAutoincrement,
          identity := c.columnIdentity, default := c.columnDefault, onUpdate := c.onUpdateCurrentTimestamp,
          collation := if c.collationName = cat.defaultCollation then [] else c.collationName }
        (K ++ keysOn t PRIMARY_KEY c.columnName ++ keysOn t UNIQUE c.columnName ++ keysOn t FOREIGN_KEY c.columnName)
        (X ++ (keysOn t FOREIGN_KEY c.columnName).flatMap (idxOf t))) _
      ((if keysOn t FOREIGN_KEY c.columnName = [] then
        t.indexes.filter (fun x => x.columns == [c.columnName]) else []).map fun x => flat (noValue (indexModifier x))) :=
    indexes_run (CS sn t.tableName cat.currentSchema c0 cols c.columnName (ex ++ colEx sn (dialectOf dn) t c)
        { type := parsedType (dialectOf dn) t c, notNull := c.isNotNull, auto := c.isAutoincrement,
          identity := c.columnIdentity, default := c.columnDefault, onUpdate := c.onUpdateCurrentTimestamp,
          collation := if c.collationName = cat.defaultCollation then [] else c.collationName }
        (K ++ keysOn t PRIMARY_KEY c.columnName ++ keysOn t UNIQUE c.columnName ++ keysOn t FOREIGN_KEY c.columnName))
      (fun x hx X s hs hfr => by
        split at hx
        · obtain ⟨e1, e2⟩ := List.mem_filter.1 hx
          exact col_index hf e1 (eq_of_beq e2) hs hfr
        · simp at hx)
      (by rw [List.append_assoc]; exact hX)
  have s12 : Runs (columnModifier isFloat dn c.columnName cols.length) _
      (CS sn t.tableName cat.currentSchema c0 cols c.columnName (ex ++ colEx sn (dialectOf dn) t c)
        (parsedAttrs (dialectOf dn) cat t c)
        (K ++ keysOn t PRIMARY_KEY c.columnName ++ keysOn t UNIQUE c.columnName ++ keysOn t FOREIGN_KEY c.columnName)
        (X ++ (keysOn t FOREIGN_KEY c.columnName).flatMap (idxOf t) ++
          (if keysOn t FOREIGN_KEY c.columnName = [] then
            t.indexes.filter (fun x => x.columns == [c.columnName]) else []))) _ :=
    attr_opt (isFloat := isFloat) (dn := dn) (sn := sn) (tn := t.tableName) (cur := cat.currentSchema)
      (n := c.columnName) (c0 := c0) (cols := cols)
      (a := { type := parsedType (dialectOf dn) t c, notNull := c.isNotNull, auto := c.isAutoincrement,
               identity := c.columnIdentity, default := c.columnDefault, onUpdate := c.onUpdateCurrentTimestamp,
               collation := if c.collationName = cat.defaultCollation then [] else c.collationName })
      (b := c.isGenerated = true ∨ c.generatedExpr ≠ []) (m := flag b!"generated")
      (f := fun x => { x with isGenerated := true })
      rfl (by decide) (fun _ => rfl) (fun _ => ⟨rfl, rfl⟩)
      (fun h x hx => by
        unfold parsedAttrs
        rw [decide_eq_true h]
        rw [show attrsOf { x with isGenerated := true } = { attrsOf x with generated := true } from rfl, hx])
      (fun h => by unfold parsedAttrs; rw [decide_eq_false h])
  have happ := ((((((((((s1.append s2).append s3).append s4).append s5).append s6).append s7).append
    s8).append s9).append s10).append s11).append s12
  simp only [← List.append_assoc]
  refine (fun l (hl : (columnMods (dialectOf dn) cat t (fieldType (dialectOf dn) c) c).map flat = l)
    (h : Runs _ _ _ l) => hl ▸ h) _ ?_ happ
  have hsplit : (if keysOn t FOREIGN_KEY c.columnName = [] then
      (t.indexes.filter fun x => x.columns == [c.columnName]).map (fun x => noValue (indexModifier x))
      else []).map flat = (if keysOn t FOREIGN_KEY c.columnName = [] then
        t.indexes.filter (fun x => x.columns == [c.columnName]) else []).map
          fun x => flat (noValue (indexModifier x)) := by
    split
    · rw [List.map_map]; rfl
    · rfl
  unfold columnMods
  simp only [List.map_append, hsplit, List.map_map, opt_flat (flat_flag _), opt_flat (flat_raw _ _)]
  rfl

end

end Sqddl.Structs
