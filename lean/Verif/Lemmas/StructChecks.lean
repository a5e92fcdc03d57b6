import Verif.Lemmas.StructTable

/-!
# Reading the struct of a table: all fields, and the checks at the end
-/

namespace Sqddl.Structs
open Go StructSpec ModifierSpec

section
variable {isFloat : Str → Bool} {cat : Catalog} {t : Table} {dn : Str}
variable (hf : TableFits isFloat (dialectOf dn) cat t) (hok : CatalogSpec.TableOk t)
variable (href : ∀ k ∈ keysOf t, k.constraintType = FOREIGN_KEY → RefNames cat k)
variable {sn : Str} {c0 : CatalogCache} {ex0 : List (Str × Str × Str)}

include hf hok href in
/-- All fields are read. -/
theorem fields_ok :
    Runs (parseField isFloat dn) (TS sn (dialectOf dn) cat t c0 ex0 [] [] [])
      (TS sn (dialectOf dn) cat t c0 ex0 t.columns (ordKeys t) (ordIndexes t))
      (flatStruct (structOf (dialectOf dn) cat t)).fields := by
  have hK := ordKeys_nodup hf hok
  have hX := ordIndexes_nodup hf hok
  have hK1 : ((widePkey t ++ t.columns.flatMap (colKeys t)).map (·.constraintName)).Nodup := by
    unfold ordKeys at hK
    rw [List.map_append, List.nodup_append] at hK
    exact hK.1
  have hX2 : ((t.columns.flatMap (colIndexes t) ++ (restKeysOf t).flatMap (idxOf t)).map (·.indexName)).Nodup := by
    unfold ordIndexes at hX
    rw [List.map_append, List.nodup_append] at hX
    exact hX.1
  have hX1 : ((t.columns.flatMap (colIndexes t)).map (·.indexName)).Nodup := by
    rw [List.map_append, List.nodup_append] at hX2
    exact hX2.1
  have hK0 : ((widePkey t).map (·.constraintName)).Nodup := by
    rw [List.map_append, List.nodup_append] at hK1
    exact hK1.1
  have hcols : Runs (parseField isFloat dn)
      (TS sn (dialectOf dn) cat t c0 ex0 [] (widePkey t) [])
      (TS sn (dialectOf dn) cat t c0 ex0 t.columns (widePkey t ++ t.columns.flatMap (colKeys t))
        (t.columns.flatMap (colIndexes t)))
      (t.columns.map fun c => flatField (columnFieldOf (dialectOf dn) cat t c)) := by
    have := Runs.list (step := parseField isFloat dn)
      (f := fun c => flatField (columnFieldOf (dialectOf dn) cat t c))
      (fun pre => TS sn (dialectOf dn) cat t c0 ex0 pre (widePkey t ++ pre.flatMap (colKeys t))
        (pre.flatMap (colIndexes t))) t.columns (by
        intro pre c post e p hp
        have hnd := hok.columns
        rw [e] at hK1 hX1 hnd
        obtain ⟨p', e', h'⟩ := field_ok hf href (c := c) (by rw [e]; simp) hp (by
            intro hm
            rw [List.map_append, List.map_cons, List.nodup_append] at hnd
            exact hnd.2.2 _ hm _ (by simp) rfl) (by
            rw [List.flatMap_append, List.flatMap_cons, ← List.append_assoc, ← List.append_assoc,
              List.map_append, List.nodup_append] at hK1
            exact hK1.1) (by
            rw [List.flatMap_append, List.flatMap_cons, ← List.append_assoc,
              List.map_append, List.nodup_append] at hX1
            exact hX1.1)
        refine ⟨p', e', ?_⟩
        rw [List.flatMap_append, List.flatMap_singleton, List.flatMap_append, List.flatMap_singleton,
          ← List.append_assoc]
        exact h')
    simpa using this
  have hkeys : Runs (parseField isFloat dn)
      (TS sn (dialectOf dn) cat t c0 ex0 t.columns (widePkey t ++ t.columns.flatMap (colKeys t))
        (t.columns.flatMap (colIndexes t)))
      (TS sn (dialectOf dn) cat t c0 ex0 t.columns (ordKeys t)
        (t.columns.flatMap (colIndexes t) ++ (restKeysOf t).flatMap (idxOf t)))
      ((restKeysOf t).map fun k => flatField (blankField (fullMod cat.currentSchema t.indexes k))) :=
    keys_run (t := t) (TS sn (dialectOf dn) cat t c0 ex0 t.columns)
      (fun k hk K X p hp h1 h2 => blank_key hf href (List.mem_filter.1 hk).1 hp h1 h2) hK hX2
  have hidx : Runs (parseField isFloat dn)
      (TS sn (dialectOf dn) cat t c0 ex0 t.columns (ordKeys t)
        (t.columns.flatMap (colIndexes t) ++ (restKeysOf t).flatMap (idxOf t)))
      (TS sn (dialectOf dn) cat t c0 ex0 t.columns (ordKeys t) (ordIndexes t))
      ((restIndexesOf t).map fun x => flatField (blankField (indexModifier x))) :=
    indexes_run (TS sn (dialectOf dn) cat t c0 ex0 t.columns (ordKeys t))
      (fun x hx X p hp h1 => blank_index hf (List.mem_filter.1 hx).1 hp h1) hX
  have hall := ((Runs.single (fun p hp => head_ok (tag := tableTag cat.currentSchema t) hf href hp hK0)).append
    hcols).append (hkeys.append hidx)
  have he : (flatStruct (structOf (dialectOf dn) cat t)).fields =
      [flatField { type := b!"sq.TableStruct", nameTag := tableTag cat.currentSchema t,
                   modifiers := (widePkey t).map (fullMod cat.currentSchema t.indexes) }] ++
      (t.columns.map fun c => flatField (columnFieldOf (dialectOf dn) cat t c)) ++
      (((restKeysOf t).map fun k => flatField (blankField (fullMod cat.currentSchema t.indexes k))) ++
       ((restIndexesOf t).map fun x => flatField (blankField (indexModifier x)))) := by
    unfold flatStruct structOf
    dsimp only
    simp only [List.map_append, List.map_cons, List.map_map, List.singleton_append]
    rfl
  rw [he]
  exact hall

end

/-! ## The checks -/

section
variable {sn tn : Str} {c0 : CatalogCache} {ex : List (Str × Str × Str)} {cols : List Column}
variable {ks : List Constraint} {xs : List Index} {p : Parser}

theorem map_modify_same {α β : Type} {f : α → α} {g : α → β} {l : List α} {i : Nat} {a : α}
    (ha : l[i]? = some a) (h : g (f a) = g a) : (l.modify i f).map g = l.map g := by
  apply List.ext_getElem?
  intro j
  rw [List.getElem?_map, List.getElem?_map, List.getElem?_modify]
  by_cases e : i = j
  · subst e; rw [ha]; simp [h]
  · simp [e]

theorem St.changeColumn (h : St sn tn c0 ex cols ks xs p) {f : Column → Column} {i : Nat} {c : Column}
    (hc : cols[i]? = some c) (hn : (f c).columnName = c.columnName) (hi : (f c).ignore = false) :
    St sn tn c0 ex (cols.modify i f) ks xs (p.setColumn i f) := by
  refine ⟨?_, h.ok, ?_, ?_, h.ksLive, h.xsLive, h.frame, h.explicit⟩
  · simp only [Parser.setColumn, h.table]
  · have := h.block
    unfold TableBlock at this ⊢
    rw [map_modify_same hc hn]
    exact this
  · intro x hx
    obtain ⟨j, hj⟩ := List.getElem?_of_mem hx
    rw [List.getElem?_modify] at hj
    by_cases e : i = j
    · subst e; rw [hc] at hj; simp at hj; rw [← hj]; exact hi
    · simp [e] at hj; exact h.colsLive x (List.mem_of_getElem? hj)

theorem St.columnPos (h : St sn tn c0 ex cols ks xs p) {i : Nat} {c : Column} (hc : cols[i]? = some c) :
    columnPos p c.columnName = some (some i) := by
  unfold Structs.columnPos
  rw [h.table]
  exact slot_found (name := fun c : Column => c.columnName) (ign := fun x : Column => x.ignore)
    h.block.columns hc (h.colsLive c (List.mem_of_getElem? hc))

theorem St.missing (h : St sn tn c0 ex cols ks xs p) {ns : List Str}
    (hns : ∀ n ∈ ns, n ∈ cols.map (·.columnName)) : missingColumn p ns = some false := by
  unfold missingColumn
  induction ns with
  | nil => rfl
  | cons n ns ih =>
    obtain ⟨c, hc, e⟩ := List.mem_map.1 (hns n (by simp))
    obtain ⟨i, hi⟩ := List.getElem?_of_mem hc
    rw [List.foldlM_cons, ← e, h.columnPos hi]
    exact ih fun m hm => hns m (by simp [hm])

end

/-- Whether one of the keys is a primary key on this column only. -/
def pkOn (K : List Constraint) (c : Column) : Bool :=
  K.any fun k => k.constraintType == PRIMARY_KEY && k.columns == [c.columnName]

/-- The type of a column after some of the keys have been looked at. -/
def typeAfter (d : Dialect) (t : Table) (K : List Constraint) (c : Column) : Str :=
  if pkOn K c then c.columnType else parsedType d t c

/-- The attributes of a column after some of the keys have been looked at. -/
def attrsAfter (d : Dialect) (cat : Catalog) (t : Table) (K : List Constraint) (c : Column) : Attrs :=
  { parsedAttrs d cat t c with type := typeAfter d t K c }

/-- A column that was read, after some of the keys have been looked at. -/
structure ColAfter (d : Dialect) (cat : Catalog) (t : Table) (K : List Constraint) (c c' : Column) : Prop where
  name : c'.columnName = c.columnName
  attrs : attrsOf c' = attrsAfter d cat t K c
  pk : pkOn K c = true → c'.isPrimaryKey = true

/-- The state while the keys are looked at. -/
def CK (sn : Str) (d : Dialect) (cat : Catalog) (t : Table) (c0 : CatalogCache)
    (ex0 : List (Str × Str × Str)) (K : List Constraint) (p : Parser) : Prop :=
  ∃ l : List (Column × Column), l.map (·.1) = t.columns ∧
    (∀ q ∈ l, ColAfter d cat t K q.1 q.2) ∧
    St sn t.tableName c0 (ex0 ++ t.columns.flatMap (colEx sn d t)) (l.map (·.2))
      ((ordKeys t).map (keyImage sn t.tableName cat.currentSchema))
      ((ordIndexes t).map (idxImage sn t.tableName)) p

section
variable {isFloat : Str → Bool} {cat : Catalog} {t : Table} {dn : Str}
variable (hf : TableFits isFloat (dialectOf dn) cat t) (hok : CatalogSpec.TableOk t)
variable {sn : Str} {c0 : CatalogCache} {ex0 : List (Str × Str × Str)}

theorem CK.start {p : Parser} {d : Dialect}
    (h : TS sn d cat t c0 ex0 t.columns (ordKeys t) (ordIndexes t) p) : CK sn d cat t c0 ex0 [] p := by
  obtain ⟨l, h1, h2, h3⟩ := h
  exact ⟨l, h1, fun q hq => ⟨(h2 q hq).1, (h2 q hq).2, by simp [pkOn]⟩, h3⟩

theorem CK.nameMem {p : Parser} {d : Dialect} {l : List (Column × Column)}
    (h1 : l.map (·.1) = t.columns) {K : List Constraint} (h2 : ∀ q ∈ l, ColAfter d cat t K q.1 q.2) :
    (l.map (·.2)).map (·.columnName) = t.columns.map (·.columnName) := by
  rw [← h1, List.map_map, List.map_map]
  exact List.map_congr_left fun q hq => (h2 q hq).name

/-- The column of a name. -/
theorem CK.column {d : Dialect} {l : List (Column × Column)} (h1 : l.map (·.1) = t.columns)
    {n : Str} (hn : n ∈ t.columns.map (·.columnName)) :
    ∃ i : Nat, ∃ q : Column × Column, l[i]? = some q ∧ q.1.columnName = n ∧ q.1 ∈ t.columns := by
  rw [← h1, List.map_map] at hn
  obtain ⟨q, hq, e⟩ := List.mem_map.1 hn
  obtain ⟨i, hi⟩ := List.getElem?_of_mem hq
  exact ⟨i, q, hi, e, by rw [← h1]; exact List.mem_map_of_mem hq⟩

include hok in
theorem explicit_iff {d : Dialect} {c : Column} (hc : c ∈ t.columns)
    (hex : ∀ e ∈ ex0, (e.1, e.2.1) ≠ (sn, t.tableName)) :
    (ex0 ++ t.columns.flatMap (colEx sn d t)).contains (sn, t.tableName, c.columnName) = true ↔
      typeMods d t (fieldType d c) c ≠ [] := by
  rw [List.contains_iff_mem, List.mem_append, List.mem_flatMap]
  constructor
  · rintro (h | ⟨c', hc', h⟩)
    · exact absurd rfl (hex _ h)
    · unfold colEx at h
      split at h
      · simp at h
      · rename_i hne
        rw [List.mem_singleton] at h
        simp only [Prod.mk.injEq, true_and] at h
        rw [inj_of_nodup hok.columns hc hc' h]
        exact hne
  · intro h
    refine Or.inr ⟨c, hc, ?_⟩
    rw [colEx, if_neg h]
    simp

theorem default_int (d : Dialect) : ∀ ty ∈ fieldTypes,
    toUpper (defaultColumnType d ty) = b!"INT" → defaultColumnType d ty = b!"INT" := by
  cases d <;> decide

include hf hok in
/-- Marking a primary key gives the column its type. -/
theorem mark_type {c : Column} (hc : c ∈ t.columns) {k : Constraint} (hk : k ∈ keysOf t)
    (hpk : k.constraintType = PRIMARY_KEY) (hkc : k.columns = [c.columnName])
    (hex : ∀ e ∈ ex0, (e.1, e.2.1) ≠ (sn, t.tableName)) {ty : Str}
    (hty : ty = c.columnType ∨ ty = parsedType (dialectOf dn) t c) :
    (if dialectOf dn = .sqlite ∧ toUpper ty = b!"INT" ∧
        (ex0 ++ t.columns.flatMap (colEx sn (dialectOf dn) t)).contains (sn, t.tableName, c.columnName) = false
      then b!"INTEGER" else ty) = c.columnType := by
  by_cases hs : dialectOf dn = .sqlite
  · have hk' := (mem_keysOf.1 hk).1
    have hpt := hf.pkeyType hs k hk' hpk c hc hkc
    have hplain : (if dialectOf dn = .sqlite ∧ toUpper c.columnType = b!"INT" ∧
        (ex0 ++ t.columns.flatMap (colEx sn (dialectOf dn) t)).contains (sn, t.tableName, c.columnName) = false
      then b!"INTEGER" else c.columnType) = c.columnType := by
      rw [if_neg]
      rintro ⟨-, h2, h3⟩
      have h4 : typeMods (dialectOf dn) t (fieldType (dialectOf dn) c) c = [] := by
        refine Classical.not_not.1 fun hne => ?_
        rw [(explicit_iff (sn := sn) (ex0 := ex0) hok hc hex).2 hne] at h3
        exact absurd h3 (by decide)
      have hrow : ¬ rowid (dialectOf dn) t c = true := by
        intro hr
        rw [(rowid_type hf hc hr).2] at h2
        exact absurd h2 (by decide)
      have h0 : c.columnType ≠ [] := by
        intro e; rw [e] at h2; exact absurd h2 (by decide)
      have hd : c.columnType = defaultColumnType (dialectOf dn) (fieldType (dialectOf dn) c) := by
        refine Classical.not_not.1 fun hne => ?_
        unfold typeMods at h4
        rw [if_pos ⟨h0, hne, by simp [hrow]⟩] at h4
        simp at h4
      have hmem : fieldType (dialectOf dn) c ∈ fieldTypes := getFieldType_mem (getFieldType_some hf hc)
      rw [hd] at h2
      exact hpt.1 (hd.trans (default_int _ _ hmem h2))
    rcases hty with e | e
    · rw [e]; exact hplain
    · rw [e]
      unfold parsedType
      by_cases h : rowid (dialectOf dn) t c = true ∧ c.isAutoincrement = false
      · rw [if_pos h, if_pos, (rowid_type hf hc h.1).2]
        refine ⟨hs, by decide, ?_⟩
        rw [← Bool.not_eq_true]
        rw [explicit_iff hok hc hex]
        intro hne
        refine hne ?_
        unfold typeMods
        rw [if_neg]
        rintro ⟨-, -, h5⟩
        rw [h.1] at h5
        exact absurd h5 (by decide)
      · rw [if_neg h]; exact hplain
  · rw [if_neg (fun h => hs h.1)]
    rcases hty with e | e
    · exact e
    · rw [e, parsedType, if_neg]
      rintro ⟨h, -⟩
      exact hs (rowid_type hf hc h).1

theorem pkOn_snoc (K : List Constraint) (k : Constraint) (c : Column) :
    pkOn (K ++ [k]) c = (pkOn K c || (k.constraintType == PRIMARY_KEY && k.columns == [c.columnName])) := by
  unfold pkOn
  rw [List.any_append]
  simp

include hf hok in
theorem constraint_ok {K : List Constraint} {k : Constraint} (hk : k ∈ keysOf t) {p : Parser}
    (hex : ∀ e ∈ ex0, (e.1, e.2.1) ≠ (sn, t.tableName))
    (h : CK sn (dialectOf dn) cat t c0 ex0 K p) :
    ∃ p', checkConstraint (dialectOf dn) p (keyImage sn t.tableName cat.currentSchema k) = some p' ∧
      CK sn (dialectOf dn) cat t c0 ex0 (K ++ [k]) p' := by
  obtain ⟨l, h1, h2, h3⟩ := h
  have hkf := hf.keys k hk
  have hnames := CK.nameMem (p := p) h1 h2
  have hmiss : missingColumn p k.columns = some false :=
    h3.missing (by rw [hnames]; exact hkf.columns.2)
  have hty : k.constraintType = PRIMARY_KEY ∨ k.constraintType = UNIQUE ∨ k.constraintType = FOREIGN_KEY :=
    (mem_keysOf.1 hk).2
  unfold checkConstraint
  rw [if_neg (show ¬ (keyImage sn t.tableName cat.currentSchema k).ignore = true from by simp [keyImage])]
  show ∃ p', (missingColumn p k.columns).bind _ = some p' ∧ _
  rw [hmiss, Option.bind_some, if_neg (by decide)]
  by_cases hl : k.columns.length = 1
  · have hcond : (keyImage sn t.tableName cat.currentSchema k).columns.length = 1 ∧
        ((keyImage sn t.tableName cat.currentSchema k).constraintType = PRIMARY_KEY ∨
         (keyImage sn t.tableName cat.currentSchema k).constraintType = UNIQUE ∨
         (keyImage sn t.tableName cat.currentSchema k).constraintType = FOREIGN_KEY) := ⟨hl, hty⟩
    rw [if_pos hcond]
    obtain ⟨n, hn⟩ := List.length_eq_one_iff.1 hl
    obtain ⟨i, q, hi, hqn, hqc⟩ := CK.column (d := dialectOf dn) h1 (hkf.columns.2 n (by rw [hn]; simp))
    have hq2 := h2 q (List.mem_of_getElem? hi)
    have hci : (l.map (·.2))[i]? = some q.2 := by rw [List.getElem?_map, hi]; rfl
    have hpos : columnPos p n = some (some i) := by
      have := h3.columnPos hci
      rw [hq2.name, hqn] at this
      exact this
    have hhead : (keyImage sn t.tableName cat.currentSchema k).columns.headD [] = n := by
      show k.columns.headD [] = n
      rw [hn]; rfl
    have hcol : p.table.columns[i]? = some q.2 := by rw [h3.table]; exact hci
    have hsn : p.table.tableSchema = sn := by rw [h3.table]
    have htn : p.table.tableName = t.tableName := by rw [h3.table]
    rw [hhead, hpos, Option.bind_some, Option.bind_some, hcol, Option.bind_some, hsn, htn, h3.explicit]
    -- the marked column
    have hmark : ∃ c', markColumn (dialectOf dn)
        ((ex0 ++ t.columns.flatMap (colEx sn (dialectOf dn) t)).contains (sn, t.tableName, n))
        (keyImage sn t.tableName cat.currentSchema k) q.2 = some c' ∧
        c'.ignore = q.2.ignore ∧ ColAfter (dialectOf dn) cat t (K ++ [k]) q.1 c' := by
      unfold markColumn
      by_cases hp : k.constraintType = PRIMARY_KEY
      · rw [if_pos (show (keyImage sn t.tableName cat.currentSchema k).constraintType = PRIMARY_KEY from hp)]
        refine ⟨_, rfl, rfl, hq2.name, ?_, fun _ => rfl⟩
        have hon : pkOn (K ++ [k]) q.1 = true := by
          rw [pkOn_snoc, hp, hn, hqn]; simp
        have hcur : q.2.columnType = q.1.columnType ∨ q.2.columnType = parsedType (dialectOf dn) t q.1 := by
          have := congrArg Attrs.type hq2.attrs
          change q.2.columnType = typeAfter (dialectOf dn) t K q.1 at this
          rw [this]
          unfold typeAfter
          split
          · exact Or.inl rfl
          · exact Or.inr rfl
        have hmt := mark_type hf hok hqc hk hp (by rw [hn, hqn]) hex hcur
        rw [hqn] at hmt
        have hrest := hq2.attrs
        unfold attrsAfter typeAfter
        rw [if_pos hon]
        have e : attrsOf { q.2 with
            isPrimaryKey := true
            columnType :=
              if dialectOf dn = .sqlite ∧ toUpper q.2.columnType = b!"INT" ∧
                (ex0 ++ t.columns.flatMap (colEx sn (dialectOf dn) t)).contains (sn, t.tableName, n) = false
              then b!"INTEGER" else q.2.columnType } =
            { attrsOf q.2 with type := q.1.columnType } := by
          rw [hmt]; rfl
        rw [e, hrest]
        rfl
      · have hon : pkOn (K ++ [k]) q.1 = pkOn K q.1 := by
          rw [pkOn_snoc, beq_eq_false_iff_ne.2 hp]; simp
        have hsame : attrsAfter (dialectOf dn) cat t (K ++ [k]) q.1 = attrsAfter (dialectOf dn) cat t K q.1 := by
          unfold attrsAfter typeAfter
          rw [hon]
        rw [if_neg (show ¬ (keyImage sn t.tableName cat.currentSchema k).constraintType = PRIMARY_KEY from hp)]
        by_cases hu : k.constraintType = UNIQUE
        · rw [if_pos (show (keyImage sn t.tableName cat.currentSchema k).constraintType = UNIQUE from hu)]
          refine ⟨_, rfl, rfl, hq2.name, ?_, ?_⟩
          · rw [hsame]; exact hq2.attrs
          · rw [hon]; exact hq2.pk
        · rw [if_neg (show ¬ (keyImage sn t.tableName cat.currentSchema k).constraintType = UNIQUE from hu)]
          have hfk : k.constraintType = FOREIGN_KEY := by
            rcases hty with h | h | h
            · exact absurd h hp
            · exact absurd h hu
            · exact h
          have hrl := (hkf.ref hfk).length
          rw [hl] at hrl
          obtain ⟨r, hr⟩ := List.length_eq_one_iff.1 hrl
          have hrh : (keyImage sn t.tableName cat.currentSchema k).referencesColumns.head? = some r := by
            show k.referencesColumns.head? = some r
            rw [hr]; rfl
          rw [hrh, Option.map_some]
          refine ⟨_, rfl, rfl, hq2.name, ?_, ?_⟩
          · rw [hsame]; exact hq2.attrs
          · rw [hon]; exact hq2.pk
    obtain ⟨c', e, hig, hc'⟩ := hmark
    rw [e, Option.map_some]
    refine ⟨_, rfl, l.modify i (fun q => (q.1, c')), ?_, ?_, ?_⟩
    · rw [map_modify_same hi rfl, h1]
    · intro r hr
      obtain ⟨j, hj⟩ := List.getElem?_of_mem hr
      rw [List.getElem?_modify] at hj
      by_cases ej : i = j
      · subst ej
        rw [hi] at hj
        simp at hj
        rw [← hj]
        exact hc'
      · simp [ej] at hj
        have hr2 := h2 r (List.mem_of_getElem? hj)
        have hne : r.1.columnName ≠ n := by
          intro en
          have hnd := hok.columns
          rw [← h1, List.map_map] at hnd
          exact ej (getElem?_nodup_inj hnd hi hj (by
            show q.1.columnName = r.1.columnName
            rw [hqn, en]))
        have hon : pkOn (K ++ [k]) r.1 = pkOn K r.1 := by
          rw [pkOn_snoc, hn]
          have : ([n] == [r.1.columnName]) = false := by
            rw [beq_eq_false_iff_ne]
            intro e'
            simp only [List.cons.injEq, and_true] at e'
            exact hne e'.symm
          rw [this]; simp
        refine ⟨hr2.name, ?_, ?_⟩
        · rw [hr2.attrs]; unfold attrsAfter typeAfter; rw [hon]
        · rw [hon]; exact hr2.pk
    · have h4 := h3.changeColumn (f := fun _ => c') hci (hc'.name.trans hq2.name.symm)
        (hig.trans (h3.colsLive _ (List.mem_of_getElem? hci)))
      have : (l.modify i (fun q => (q.1, c'))).map (·.2) = (l.map (·.2)).modify i (fun _ => c') := by
        apply List.ext_getElem?
        intro j
        rw [List.getElem?_map, List.getElem?_modify, List.getElem?_modify, List.getElem?_map]
        by_cases e : i = j
        · simp [e]; rfl
        · simp [e]
      rw [this]
      exact h4
  · rw [if_neg (show ¬ ((keyImage sn t.tableName cat.currentSchema k).columns.length = 1 ∧ _) from fun h => hl h.1)]
    refine ⟨p, rfl, l, h1, fun q hq => ?_, h3⟩
    have hq2 := h2 q hq
    have hon : pkOn (K ++ [k]) q.1 = pkOn K q.1 := by
      rw [pkOn_snoc]
      have : (k.columns == [q.1.columnName]) = false := by
        rw [beq_eq_false_iff_ne]
        intro e'
        rw [e'] at hl
        exact hl rfl
      rw [this]; simp
    refine ⟨hq2.name, ?_, ?_⟩
    · rw [hq2.attrs]; unfold attrsAfter typeAfter; rw [hon]
    · rw [hon]; exact hq2.pk

include hf in
theorem index_check {K : List Constraint} {x : Index} (hx : x ∈ t.indexes) {p : Parser}
    (h : CK sn (dialectOf dn) cat t c0 ex0 K p) :
    ∃ p', checkIndex p (idxImage sn t.tableName x) = some p' ∧
      CK sn (dialectOf dn) cat t c0 ex0 K p' := by
  obtain ⟨l, h1, h2, h3⟩ := h
  have hmiss : missingColumn p x.columns = some false :=
    h3.missing (by rw [CK.nameMem (p := p) h1 h2]; exact (hf.indexes x hx).columns.2)
  unfold checkIndex
  rw [if_neg (show ¬ (idxImage sn t.tableName x).ignore = true from by simp [idxImage])]
  show ∃ p', (missingColumn p x.columns).map _ = some p' ∧ _
  rw [hmiss]
  exact ⟨_, rfl, l, h1, h2, h3.reportIf rfl⟩

include hf hok in
theorem pkey_col {k : Constraint} (hk : k ∈ keysOf t) (hpk : k.constraintType = PRIMARY_KEY)
    {n : Str} (hn : n ∈ k.columns) {p : Parser}
    (h : CK sn (dialectOf dn) cat t c0 ex0 (ordKeys t) p) :
    ∃ p', pkeyNotNull (dialectOf dn) p n = some p' ∧
      CK sn (dialectOf dn) cat t c0 ex0 (ordKeys t) p' := by
  obtain ⟨l, h1, h2, h3⟩ := h
  have hkf := hf.keys k hk
  obtain ⟨i, q, hi, hqn, hqc⟩ := CK.column (d := dialectOf dn) h1 (hkf.columns.2 n hn)
  have hq2 := h2 q (List.mem_of_getElem? hi)
  have hci : (l.map (·.2))[i]? = some q.2 := by rw [List.getElem?_map, hi]; rfl
  have hpos : columnPos p n = some (some i) := by
    have := h3.columnPos hci
    rw [hq2.name, hqn] at this
    exact this
  have hnn := hf.pkeyNotNull k (mem_keysOf.1 hk).1 hpk q.1 hqc (by rw [hqn]; exact hn)
  let f : Column → Column := fun c =>
    if dialectOf dn = .sqlite ∧ c.columnType = b!"INTEGER" ∧ c.isPrimaryKey then c
      else { c with isNotNull := true }
  have hff : (f q.2).columnName = q.2.columnName ∧ (f q.2).ignore = q.2.ignore ∧
      attrsOf (f q.2) = attrsOf q.2 ∧ (f q.2).isPrimaryKey = q.2.isPrimaryKey := by
    by_cases hc : dialectOf dn = .sqlite ∧ q.2.columnType = b!"INTEGER" ∧ q.2.isPrimaryKey = true
    · have : f q.2 = q.2 := if_pos hc
      rw [this]; exact ⟨rfl, rfl, rfl, rfl⟩
    · have : f q.2 = { q.2 with isNotNull := true } := if_neg hc
      rw [this]
      refine ⟨rfl, rfl, ?_, rfl⟩
      have hnot : q.2.isNotNull = true := by
        have e1 := congrArg Attrs.notNull hq2.attrs
        change q.2.isNotNull = q.1.isNotNull at e1
        rcases hnn with h | ⟨h5, h6, h7⟩
        · rw [e1, h]
        · exfalso
          have hcol : k.columns = [q.1.columnName] := by
            obtain ⟨m, hm⟩ := List.length_eq_one_iff.1 h6
            rw [hm, List.mem_singleton] at hn
            rw [hm, hqn, hn]
          have hon : pkOn (ordKeys t) q.1 = true := by
            unfold pkOn
            rw [List.any_eq_true]
            exact ⟨k, (mem_ordKeys hf).2 hk, by rw [hpk, hcol]; simp⟩
          refine hc ⟨h5, ?_, hq2.pk hon⟩
          have e2 := congrArg Attrs.type hq2.attrs
          change q.2.columnType = typeAfter (dialectOf dn) t (ordKeys t) q.1 at e2
          rw [e2, typeAfter, if_pos hon, h7]
      show ({ attrsOf q.2 with notNull := true } : Attrs) = attrsOf q.2
      rw [← hnot]; rfl
  unfold pkeyNotNull
  rw [hpos, Option.map_some, Option.elim_some]
  refine ⟨_, rfl, l.modify i (fun q => (q.1, f q.2)), ?_, ?_, ?_⟩
  · rw [map_modify_same hi rfl, h1]
  · intro r hr
    obtain ⟨j, hj⟩ := List.getElem?_of_mem hr
    rw [List.getElem?_modify] at hj
    by_cases ej : i = j
    · subst ej
      rw [hi] at hj
      simp at hj
      rw [← hj]
      exact ⟨hff.1.trans hq2.name, hff.2.2.1.trans hq2.attrs, fun h => hff.2.2.2.trans (hq2.pk h)⟩
    · simp [ej] at hj
      exact h2 r (List.mem_of_getElem? hj)
  · have h4 := h3.changeColumn (f := f) hci hff.1 (hff.2.1.trans (h3.colsLive _ (List.mem_of_getElem? hci)))
    have : (l.modify i (fun q => (q.1, f q.2))).map (·.2) = (l.map (·.2)).modify i f := by
      apply List.ext_getElem?
      intro j
      rw [List.getElem?_map, List.getElem?_modify, List.getElem?_modify, List.getElem?_map]
      by_cases e : i = j
      · simp [e]; rfl
      · simp [e]
    rw [this]
    exact h4

include hf hok in
theorem pkey_ok {p : Parser} (h : CK sn (dialectOf dn) cat t c0 ex0 (ordKeys t) p) :
    ∃ p', setPkeyNotNull (dialectOf dn) p = some p' ∧
      CK sn (dialectOf dn) cat t c0 ex0 (ordKeys t) p' := by
  obtain ⟨l, h1, h2, h3⟩ := h
  have hck : CK sn (dialectOf dn) cat t c0 ex0 (ordKeys t) p := ⟨l, h1, h2, h3⟩
  have hcon : p.table.constraints = (ordKeys t).map (keyImage sn t.tableName cat.currentSchema) := by
    rw [h3.table]
  have hid : (p.table.tableSchema, p.table.tableName) = (sn, t.tableName) := by rw [h3.table]
  unfold setPkeyNotNull CatalogCache.getPrimaryKey
  rw [hid, hcon]
  cases hg : p.cache.pkeys.get (sn, t.tableName) with
  | none => exact ⟨p, rfl, hck⟩
  | some i =>
    have hb := h3.block.pkeys i hg
    rw [List.map_map, List.getElem?_map] at hb
    obtain ⟨k, hki, hkt⟩ := Option.map_eq_some_iff.1 hb
    have hk := (mem_ordKeys hf).1 (List.mem_of_getElem? hki)
    have hgi : ((ordKeys t).map (keyImage sn t.tableName cat.currentSchema))[i]? =
        some (keyImage sn t.tableName cat.currentSchema k) := by
      rw [List.getElem?_map, hki]; rfl
    have hgot : getAt (fun x : Constraint => x.ignore) ((ordKeys t).map (keyImage sn t.tableName cat.currentSchema)) (some i)
        = .found (keyImage sn t.tableName cat.currentSchema k) := by
      unfold getAt
      dsimp only
      rw [hgi]
      rfl
    rw [hgot]
    show ∃ p', k.columns.foldlM (pkeyNotNull (dialectOf dn)) p = some p' ∧ _
    have hrun := Runs.list (step := pkeyNotNull (dialectOf dn)) (f := id)
      (fun _ => CK sn (dialectOf dn) cat t c0 ex0 (ordKeys t)) k.columns (by
        intro pre n post e s hs
        exact pkey_col hf hok hk hkt (by rw [e]; simp) hs)
    rw [List.map_id] at hrun
    exact hrun p hck

variable (href : ∀ k ∈ keysOf t, k.constraintType = FOREIGN_KEY → RefNames cat k)

include hf hok href in
/-- The struct of a table is read. -/
theorem parseTable_ok {p : Parser} (hp : St sn t.tableName c0 ex0 [] [] [] p)
    (hex : ∀ e ∈ ex0, (e.1, e.2.1) ≠ (sn, t.tableName)) :
    ∃ p', parseTable isFloat dn (flatStruct (structOf (dialectOf dn) cat t)).fields p = some p' ∧
      CK sn (dialectOf dn) cat t c0 ex0 (ordKeys t) p' := by
  obtain ⟨p1, e1, h1⟩ := fields_ok hf hok href (sn := sn) (c0 := c0) (ex0 := ex0) p
    ⟨[], rfl, by simp, by simpa using hp⟩
  have hck1 := CK.start h1
  have hcon : p1.table.constraints = (ordKeys t).map (keyImage sn t.tableName cat.currentSchema) := by
    obtain ⟨l, -, -, h3⟩ := h1
    rw [h3.table]
  obtain ⟨p2, e2, h2⟩ := Runs.list (step := checkConstraint (dialectOf dn))
    (f := keyImage sn t.tableName cat.currentSchema)
    (fun pre => CK sn (dialectOf dn) cat t c0 ex0 pre) (ordKeys t) (by
      intro pre k post e s hs
      exact constraint_ok hf hok ((mem_ordKeys hf).1 (by rw [e]; simp)) hex hs) p1 hck1
  have hidx : p2.table.indexes = (ordIndexes t).map (idxImage sn t.tableName) := by
    obtain ⟨l, -, -, h3⟩ := h2
    rw [h3.table]
  obtain ⟨p3, e3, h3⟩ := Runs.list (step := checkIndex)
    (f := idxImage sn t.tableName)
    (fun _ => CK sn (dialectOf dn) cat t c0 ex0 (ordKeys t)) (ordIndexes t) (by
      intro pre k post e s hs
      exact index_check hf ((mem_ordIndexes hf).1 (by rw [e]; simp)) hs) p2 h2
  obtain ⟨p4, e4, h4⟩ := pkey_ok hf hok h3
  refine ⟨p4, ?_, h4⟩
  unfold parseTable
  rw [e1, Option.bind_some, hcon, e2, Option.bind_some, hidx, e3, Option.bind_some, e4]

end

end Sqddl.Structs
