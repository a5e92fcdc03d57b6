import Verif.Lemmas.StructState

/-!
# Reading the modifiers of keys, foreign keys and indexes
-/

namespace Sqddl.Structs
open Go StructSpec ModifierSpec

/-! ## Folds that do not fail -/

/-- From a state with `A` the steps lead to a state with `B`. -/
def Runs {σ α : Type} (step : σ → α → Option σ) (A B : σ → Prop) (l : List α) : Prop :=
  ∀ s, A s → ∃ s', l.foldlM step s = some s' ∧ B s'

section
variable {σ α γ : Type} {step : σ → α → Option σ} {A B C : σ → Prop} {l l' : List α}

theorem Runs.nil (h : ∀ s, A s → B s) : Runs step A B [] := fun s hs => ⟨s, rfl, h s hs⟩

theorem Runs.cons {a : α} (h : ∀ s, A s → ∃ s', step s a = some s' ∧ B s') (h' : Runs step B C l) :
    Runs step A C (a :: l) := by
  intro s hs
  obtain ⟨s1, e1, h1⟩ := h s hs
  obtain ⟨s2, e2, h2⟩ := h' s1 h1
  refine ⟨s2, ?_, h2⟩
  rw [List.foldlM_cons, e1]
  exact e2

theorem Runs.single {a : α} (h : ∀ s, A s → ∃ s', step s a = some s' ∧ B s') : Runs step A B [a] :=
  Runs.cons h (Runs.nil fun _ h => h)

theorem Runs.append (h : Runs step A B l) (h' : Runs step B C l') : Runs step A C (l ++ l') := by
  intro s hs
  obtain ⟨s1, e1, h1⟩ := h s hs
  obtain ⟨s2, e2, h2⟩ := h' s1 h1
  refine ⟨s2, ?_, h2⟩
  rw [List.foldlM_append, e1]
  exact e2

theorem Runs.list {f : γ → α} (I : List γ → σ → Prop) (L : List γ)
    (h : ∀ pre a post, L = pre ++ a :: post → ∀ s, I pre s →
      ∃ s', step s (f a) = some s' ∧ I (pre ++ [a]) s') :
    Runs step (I []) (I L) (L.map f) := by
  have : ∀ pre post, L = pre ++ post → Runs step (I pre) (I L) (post.map f) := by
    intro pre post
    induction post generalizing pre with
    | nil => intro e; rw [e, List.append_nil]; exact Runs.nil fun _ h => h
    | cons a post ih =>
      intro e
      rw [List.map_cons]
      exact Runs.cons (h pre a post e) (ih (pre ++ [a]) (by rw [e]; simp))
  exact this [] L rfl

end

/-! ## Modifiers read from a file -/

theorem flat_raw (n v : Str) : flat (raw n v) = raw n v := by
  simp only [flat, raw, Modifier.name, content]
  split
  · rfl
  · rename_i h; rw [Classical.not_not.1 h]; rfl

theorem flat_flag (n : Str) : flat (flag n) = flag n := by
  simp [flat, flag, Modifier.name, content]

theorem excludes_nil {m : Modifier} (h : m.dialects = []) (dn : Str) : excludesDialect m dn = false := by
  simp [excludesDialect, h]

theorem filter_flat (ms : List Modifier) (dn : Str) :
    (ms.map flat).filter (fun s => !excludesDialect s dn) = ms.map flat := by
  rw [List.filter_eq_self]
  intro m hm
  obtain ⟨a, -, rfl⟩ := List.mem_map.1 hm
  rw [excludes_nil rfl]; rfl

theorem parse_flat {m : Modifier} (hc : Clean m) (hr : m.raw = []) :
    ∃ v, parseRawValue (flat m) = (.mk [] m.name (content m) v (m.subs.map flat), true) ∧
      (v = m.value ∨ (m.value = [] ∧ v = b!".")) := by
  by_cases h : m.value ≠ [] ∨ m.subs ≠ []
  · refine ⟨_, parseRawValue_content m (Clean.printable m hc) hr h, ?_⟩
    by_cases hv : m.value = []
    · rw [if_pos hv]; exact Or.inr ⟨hv, rfl⟩
    · rw [if_neg hv]; exact Or.inl rfl
  · rw [not_or, Classical.not_not, Classical.not_not] at h
    refine ⟨[], ?_, Or.inl h.1.symm⟩
    have : content m = [] := by
      cases m with
      | mk d n r v subs =>
        simp only [Modifier.raw, Modifier.value, Modifier.subs] at hr h
        simp [content, hr, h]
    rw [flat, this, parseRawValue, if_pos rfl, h.2]
    rfl

theorem dot_not_join {cols : List Str} (h : ∀ n ∈ cols, GoName n) : '.' ∉ join b!"," cols := by
  induction cols with
  | nil => simp [join]
  | cons a l ih =>
    have ha := goName_not (h a (by simp)) (c := '.') (by decide)
    cases l with
    | nil => exact ha
    | cons b l =>
      rw [join]
      simp only [List.mem_append, not_or]
      exact ⟨⟨ha, by decide⟩, ih fun n hn => h n (by simp [hn])⟩

theorem join_ne_nil {cols : List Str} (h0 : cols ≠ []) (h : ∀ n ∈ cols, GoName n) : join b!"," cols ≠ [] := by
  intro e
  have := splitComma_join h0 fun s hs => goName_comma (h s hs)
  rw [e] at this
  rw [← this] at h
  exact (h [] (by simp [splitComma])).1 rfl

theorem valueColumns_ok {m : Modifier} {v n r : Str} {d : List Str} {subs : List Modifier}
    {cols columns : List Str} (hv : v = m.value ∨ (m.value = [] ∧ v = b!"."))
    (h : (m.value = [] ∧ columns = cols) ∨ m.value = join b!"," cols)
    (h0 : cols ≠ []) (hgo : ∀ n ∈ cols, GoName n) :
    valueColumns (.mk d n r v subs) columns = cols := by
  have hj := join_ne_nil h0 hgo
  have hd := dot_not_join hgo
  show (if v ≠ [] ∧ v ≠ b!"." then splitComma v else columns) = cols
  rcases h with ⟨h1, h2⟩ | h1
  · rw [if_neg]; exact h2
    rintro ⟨a, b⟩
    rcases hv with hv | ⟨-, hv⟩
    · exact a (hv.trans h1)
    · exact b hv
  · rcases hv with hv | ⟨hv, -⟩
    · rw [if_pos]
      · rw [hv, h1]; exact splitComma_join h0 fun s hs => goName_comma (hgo s hs)
      · rw [hv, h1]; exact ⟨hj, fun e => hd (by rw [e]; simp)⟩
    · exact absurd (h1.symm.trans hv) hj

theorem generateName_eq (ty : NameType) (table : Str) (columns : List Str) :
    generateName ty table columns = nameFor (nameSuffix ty) table columns := by
  have hp : namePrefix table columns =
      (table ++ columns.flatMap fun c => '_' :: c).map fun c => if c = ' ' then '_' else c := by
    unfold namePrefix underscored
    rw [List.map_append, List.map_flatMap]
    rfl
  unfold generateName nameFor
  dsimp only
  rw [hp]
  generalize (table ++ columns.flatMap fun c => '_' :: c).map (fun c => if c = ' ' then '_' else c) = q
  have hl : (nameSuffix ty).length ≤ 6 := by cases ty <;> decide
  split
  · congr 2; omega
  · rw [List.take_of_length_le (by omega)]

/-! ## Indexes -/

/-- The index that is read from the modifier of an index. -/
def idxImage (sn tn : Str) (x : Index) : Index :=
  { tableSchema := sn, tableName := tn, indexName := x.indexName, columns := x.columns
    isUnique := x.isUnique
    indexType := if toUpper x.indexType = b!"BTREE" then [] else x.indexType }

/-- The submodifiers of an index. -/
def indexSubs (x : Index) : List Modifier :=
  (if x.isUnique then [flag b!"unique"] else []) ++
  (if x.indexType ≠ [] ∧ toUpper x.indexType ≠ b!"BTREE" then [raw b!"using" x.indexType] else [])

theorem indexModifier_eq (x : Index) :
    indexModifier x = .mk [] b!"index" [] (join b!"," x.columns) (indexSubs x) := rfl

theorem noValue_index (x : Index) : noValue (indexModifier x) = .mk [] b!"index" [] [] (indexSubs x) := rfl

theorem mem_indexSubs {x : Index} {m : Modifier} (h : m ∈ indexSubs x) :
    m = flag b!"unique" ∨ m = raw b!"using" x.indexType := by
  rcases List.mem_append.1 h with h | h
  · split at h
    · exact Or.inl (List.mem_singleton.1 h)
    · simp at h
  · split at h
    · exact Or.inr (List.mem_singleton.1 h)
    · simp at h

theorem indexSubs_flat (x : Index) : (indexSubs x).map flat = indexSubs x := by
  conv => rhs; rw [← List.map_id (indexSubs x)]
  apply List.map_congr_left
  intro m hm
  rcases mem_indexSubs hm with rfl | rfl
  · exact flat_flag _
  · exact flat_raw _ _

theorem indexSub_keeps (d : Dialect) (ms : List Modifier) (x : Index) :
    (ms.foldl (indexSub d) x).indexName = x.indexName ∧ (ms.foldl (indexSub d) x).ignore = x.ignore := by
  induction ms generalizing x with
  | nil => exact ⟨rfl, rfl⟩
  | cons m ms ih =>
    rw [List.foldl_cons]
    have h1 : (indexSub d x m).indexName = x.indexName ∧ (indexSub d x m).ignore = x.ignore := by
      unfold indexSub
      split
      · exact ⟨rfl, rfl⟩
      · split <;> exact ⟨rfl, rfl⟩
    rw [(ih _).1, (ih _).2]
    exact h1

section
variable {dn sn tn : Str} {c0 : CatalogCache} {ex : List (Str × Str × Str)} {cols : List Column}
variable {ks : List Constraint} {xs : List Index} {p : Parser}

/-- Reading an index. -/
theorem index_core (h : St sn tn c0 ex cols ks xs p) {m m' : Modifier} {columns xc : List Str}
    (hp : parseRawValue m = (m', true)) (hd : m'.dialects = []) (hc : valueColumns m' columns = xc)
    (hne : xc ≠ []) (hs : ∀ s ∈ m'.subs, s.dialects = [] ∧ s.name ∈ [b!"unique", b!"using"])
    (hfr : generateName .index tn xc ∉ xs.map (·.indexName)) :
    ∃ p', parseIndexModifier dn m columns p = some p' ∧
      St sn tn c0 ex cols ks (xs ++ [m'.subs.foldl (indexSub (dialectOf dn))
        { tableSchema := sn, tableName := tn, indexName := generateName .index tn xc, columns := xc }]) p' := by
  have hemp : xc.isEmpty = false := by
    cases xc with
    | nil => exact absurd rfl hne
    | cons => rfl
  have h1 := (h.reportIf hemp).locate (generateName .index tn xc)
  obtain ⟨t', c', e, h2⟩ := h1.newIndex (columns := xc) hfr
  have hfil : m'.subs.filter (fun s => !excludesDialect s dn) = m'.subs := by
    rw [List.filter_eq_self]
    intro s hm
    rw [excludes_nil (hs s hm).1]; rfl
  have htab : p.table.tableName = tn := by rw [h.table]
  have htab2 : p.table.tableSchema = sn := by rw [h.table]
  unfold parseIndexModifier
  rw [hp]
  dsimp only
  rw [if_neg (by simp), hc, htab, e]
  refine ⟨_, rfl, ?_⟩
  refine St.reportIf ?_ ?_
  · have h3 := h2.setIndex (f := fun i => m'.subs.foldl (indexSub (dialectOf dn))
          { i with tableSchema := p.table.tableSchema, tableName := p.table.tableName,
                   ignore := excludesDialect m' dn })
      (by rw [(indexSub_keeps _ _ _).1]) (by rw [(indexSub_keeps _ _ _).2]; exact excludes_nil hd dn)
    dsimp only
    rw [hfil]
    dsimp only at h3
    rw [htab, htab2, excludes_nil hd dn] at h3
    show St sn tn c0 ex cols ks _ _
    rw [excludes_nil hd dn]
    have e1 : ((p.reportIf xc.isEmpty).locate (generateName .index tn xc)).table = p.table := rfl
    rw [e1, htab, htab2]
    exact h3
  · rw [hfil, List.any_eq_false]
    intro s hm
    have := (hs s hm).2
    simp only [List.contains_iff_mem.2 this, Bool.not_true, Bool.false_eq_true, not_false_eq_true]

theorem indexSubs_fold {d : Dialect} {t : Table} {x : Index} (hx : IndexFits d t x) :
    (indexSubs x).foldl (indexSub d)
        { tableSchema := sn, tableName := tn, indexName := x.indexName, columns := x.columns } =
      idxImage sn tn x := by
  unfold indexSubs idxImage
  by_cases hu : x.isUnique = true
  · rw [if_pos hu, hu]
    by_cases ht : x.indexType ≠ [] ∧ toUpper x.indexType ≠ b!"BTREE"
    · rw [if_pos ht, if_neg ht.2]
      have h3 := (hx.type ht.1 ht.2).2
      show indexSub d _ (raw b!"using" x.indexType) = _
      unfold indexSub
      rw [if_neg (show ¬ (raw b!"using" x.indexType).name = b!"unique" from
        (show ¬ (b!"using" : Str) = b!"unique" by decide)), if_pos ⟨rfl, h3⟩]
      rfl
    · rw [if_neg ht]
      by_cases hb : toUpper x.indexType = b!"BTREE"
      · rw [if_pos hb]; rfl
      · have : x.indexType = [] := Classical.not_not.1 fun h => ht ⟨h, hb⟩
        rw [if_neg hb, this]; rfl
  · rw [if_neg hu]
    rw [Bool.not_eq_true] at hu
    rw [hu]
    by_cases ht : x.indexType ≠ [] ∧ toUpper x.indexType ≠ b!"BTREE"
    · rw [if_pos ht, if_neg ht.2]
      have h3 := (hx.type ht.1 ht.2).2
      show indexSub d _ (raw b!"using" x.indexType) = _
      unfold indexSub
      rw [if_neg (show ¬ (raw b!"using" x.indexType).name = b!"unique" from
        (show ¬ (b!"using" : Str) = b!"unique" by decide)), if_pos ⟨rfl, h3⟩]
      rfl
    · rw [if_neg ht]
      by_cases hb : toUpper x.indexType = b!"BTREE"
      · rw [if_pos hb]; rfl
      · have : x.indexType = [] := Classical.not_not.1 fun h => ht ⟨h, hb⟩
        rw [if_neg hb, this]; rfl

theorem index_ok (h : St sn tn c0 ex cols ks xs p) {t : Table} {x : Index}
    (hx : IndexFits (dialectOf dn) t x) (hgo : ∀ n ∈ x.columns, GoName n) (htn : t.tableName = tn)
    {v : Str} {columns : List Str} (hcl : Clean (.mk [] b!"index" [] v (indexSubs x)))
    (hv : (v = [] ∧ columns = x.columns) ∨ v = join b!"," x.columns)
    (hfr : x.indexName ∉ xs.map (·.indexName)) :
    ∃ p', parseIndexModifier dn (flat (.mk [] b!"index" [] v (indexSubs x))) columns p = some p' ∧
      St sn tn c0 ex cols ks (xs ++ [idxImage sn tn x]) p' := by
  obtain ⟨v', hp, hv'⟩ := parse_flat hcl rfl
  have hname : generateName .index tn x.columns = x.indexName := by
    rw [generateName_eq, hx.name, htn]; rfl
  have := index_core (dn := dn) (xc := x.columns) h hp rfl (valueColumns_ok hv' hv hx.columns.1 hgo)
    hx.columns.1 (by
      intro s hs
      change s ∈ (indexSubs x).map flat at hs
      rw [indexSubs_flat] at hs
      rcases mem_indexSubs hs with rfl | rfl
      · exact ⟨rfl, by decide⟩
      · exact ⟨rfl, by simp [raw, Modifier.name]⟩) (by rw [hname]; exact hfr)
  change ∃ p', _ ∧ St sn tn c0 ex cols ks (xs ++ [((indexSubs x).map flat).foldl _ _]) p' at this
  rw [hname, indexSubs_flat, indexSubs_fold hx] at this
  exact this

end

/-! ## Primary keys and unique constraints -/

/-- A referential action as it is read; NO ACTION is not written. -/
def ruleImage (r : Str) : Str := if r = NO_ACTION then [] else r

/-- The constraint that is read from the modifier of a constraint. -/
def keyImage (sn tn cur : Str) (k : Constraint) : Constraint :=
  { tableSchema := sn, tableName := tn, constraintName := k.constraintName
    constraintType := k.constraintType, columns := k.columns
    referencesSchema := if k.referencesSchema ≠ [] ∧ k.referencesSchema ≠ cur then k.referencesSchema else []
    referencesTable := k.referencesTable, referencesColumns := k.referencesColumns
    updateRule := ruleImage k.updateRule, deleteRule := ruleImage k.deleteRule
    isDeferrable := k.isDeferrable, isInitiallyDeferred := k.isInitiallyDeferred }

theorem mem_defer {k : Constraint} {m : Modifier} (h : m ∈ deferModifier k) :
    m = flag b!"deferred" ∨ m = flag b!"deferrable" := by
  unfold deferModifier at h
  split at h
  · rw [List.mem_singleton] at h
    split at h
    · exact Or.inl h
    · exact Or.inr h
  · simp at h

theorem defer_flat (k : Constraint) : (deferModifier k).map flat = deferModifier k := by
  conv => rhs; rw [← List.map_id (deferModifier k)]
  apply List.map_congr_left
  intro m hm
  rcases mem_defer hm with rfl | rfl <;> exact flat_flag _

theorem deferSub_keeps (d : Dialect) (k : Constraint) (m : Modifier) :
    (deferSub d k m).constraintName = k.constraintName ∧
    (deferSub d k m).constraintType = k.constraintType ∧ (deferSub d k m).ignore = k.ignore := by
  unfold deferSub
  split
  · exact ⟨rfl, rfl, rfl⟩
  · split <;> exact ⟨rfl, rfl, rfl⟩

theorem deferSubs_keeps (d : Dialect) (ms : List Modifier) (k : Constraint) :
    (ms.foldl (deferSub d) k).constraintName = k.constraintName ∧
    (ms.foldl (deferSub d) k).constraintType = k.constraintType ∧
    (ms.foldl (deferSub d) k).ignore = k.ignore := by
  induction ms generalizing k with
  | nil => exact ⟨rfl, rfl, rfl⟩
  | cons m ms ih =>
    rw [List.foldl_cons, (ih _).1, (ih _).2.1, (ih _).2.2]
    exact deferSub_keeps d k m

theorem defer_fold {d : Dialect} {cat : Catalog} {t : Table} {k : Constraint} (hk : KeyFits d cat t k)
    (l : Constraint) (h1 : l.isDeferrable = false) (h2 : l.isInitiallyDeferred = false) :
    (deferModifier k).foldl (deferSub d) l =
      { l with isDeferrable := k.isDeferrable, isInitiallyDeferred := k.isInitiallyDeferred } := by
  unfold deferModifier
  by_cases hd : k.isDeferrable = true
  · have hdd : defers d = true := by
      rcases hk.deferrable hd with rfl | rfl <;> rfl
    rw [if_pos hd, hd]
    by_cases hi : k.isInitiallyDeferred = true
    · rw [if_pos hi, hi]
      show deferSub d l (flag b!"deferred") = _
      unfold deferSub
      rw [if_neg (fun h => absurd h.1 (show ¬ (b!"deferred" : Str) = b!"deferrable" by decide)),
        if_pos ⟨rfl, hdd⟩]
    · rw [if_neg hi]
      rw [Bool.not_eq_true] at hi
      rw [hi]
      show deferSub d l (flag b!"deferrable") = _
      unfold deferSub
      rw [if_pos ⟨rfl, hdd⟩, ← h2]
  · rw [if_neg hd]
    have hi : ¬ k.isInitiallyDeferred = true := fun h => hd (hk.initially h)
    rw [Bool.not_eq_true] at hd hi
    rw [hd, hi, List.foldl_nil]
    obtain ⟨⟩ := l
    dsimp only at h1 h2
    rw [h1, h2]

/-- The name given to a key by the parser. -/
def keyName (d : Dialect) (tn type : Str) (columns : List Str) : Str :=
  if d = .mysql ∧ type = PRIMARY_KEY then b!"PRIMARY" else generateName (nameTypeOf type) tn columns

theorem keyName_eq {d : Dialect} {cat : Catalog} {t : Table} {k : Constraint} (hk : KeyFits d cat t k)
    (ht : k.constraintType = PRIMARY_KEY ∨ k.constraintType = UNIQUE ∨ k.constraintType = FOREIGN_KEY) :
    keyName d t.tableName k.constraintType k.columns = k.constraintName := by
  rw [hk.name]
  unfold keyName
  split
  · rfl
  · rw [generateName_eq]
    congr 1
    rcases ht with h | h | h <;> rw [h] <;> rfl

section
variable {dn sn tn : Str} {c0 : CatalogCache} {ex : List (Str × Str × Str)} {cols : List Column}
variable {ks : List Constraint} {xs : List Index} {p : Parser}

/-- Reading a primary key or unique constraint. -/
theorem key_core (h : St sn tn c0 ex cols ks xs p) {m m' : Modifier} {columns kc : List Str} {type : Str}
    (hp : parseRawValue m = (m', true)) (hd : m'.dialects = [])
    (ht : (if toUpper m'.name = UNIQUE then UNIQUE else PRIMARY_KEY) = type)
    (hc : valueColumns m' columns = kc)
    (hne : kc ≠ []) (hs : ∀ s ∈ m'.subs, s.dialects = [] ∧ s.name ∈ [b!"deferrable", b!"deferred"])
    (hfr : keyName (dialectOf dn) tn type kc ∉ ks.map (·.constraintName)) :
    ∃ p', parsePrimaryKeyUniqueModifier dn m columns p = some p' ∧
      St sn tn c0 ex cols (ks ++ [m'.subs.foldl (deferSub (dialectOf dn))
        (newKey sn tn (keyName (dialectOf dn) tn type kc) type kc)]) xs p' := by
  have hemp : kc.isEmpty = false := by
    cases kc with
    | nil => exact absurd rfl hne
    | cons => rfl
  have h1 := (h.reportIf hemp).locate (keyName (dialectOf dn) tn type kc)
  obtain ⟨t', c', e, h2⟩ := h1.newConstraint (columns := kc) (type := type) hfr
  have hfil : m'.subs.filter (fun s => !excludesDialect s dn) = m'.subs := by
    rw [List.filter_eq_self]
    intro s hm
    rw [excludes_nil (hs s hm).1]; rfl
  have htab : p.table.tableName = tn := by rw [h.table]
  have htab2 : p.table.tableSchema = sn := by rw [h.table]
  have hname : (if dialectOf dn = .mysql ∧ type = PRIMARY_KEY then b!"PRIMARY"
      else generateName (nameTypeOf type) p.table.tableName kc) = keyName (dialectOf dn) tn type kc := by
    rw [htab]; rfl
  unfold parsePrimaryKeyUniqueModifier
  rw [hp]
  dsimp only
  rw [if_neg (by simp), hc, ht, hname, e]
  refine ⟨_, rfl, ?_⟩
  refine St.reportIf ?_ ?_
  · have h3 := h2.setConstraint (f := fun k => m'.subs.foldl (deferSub (dialectOf dn))
          { k with tableSchema := p.table.tableSchema, tableName := p.table.tableName,
                   ignore := excludesDialect m' dn })
      (by rw [(deferSubs_keeps _ _ _).1]) (by rw [(deferSubs_keeps _ _ _).2.1])
      (by rw [(deferSubs_keeps _ _ _).2.2]; exact excludes_nil hd dn)
    rw [hfil]
    rw [htab, htab2, excludes_nil hd dn] at h3
    rw [excludes_nil hd dn]
    have e1 : ((p.reportIf kc.isEmpty).locate (keyName (dialectOf dn) tn type kc)).table = p.table := rfl
    rw [e1, htab, htab2]
    exact h3
  · rw [hfil, List.any_eq_false]
    intro s hm
    have := (hs s hm).2
    simp only [List.contains_iff_mem.2 this, Bool.not_true, Bool.false_eq_true, not_false_eq_true]

theorem key_ok (h : St sn tn c0 ex cols ks xs p) {cat : Catalog} {t : Table} {k : Constraint}
    (hk : KeyFits (dialectOf dn) cat t k) (hgo : ∀ n ∈ k.columns, GoName n) (htn : t.tableName = tn)
    (hty : k.constraintType = PRIMARY_KEY ∨ k.constraintType = UNIQUE)
    {v : Str} {columns : List Str}
    (hcl : Clean (.mk [] (kindName k.constraintType) [] v (deferModifier k)))
    (hv : (v = [] ∧ columns = k.columns) ∨ v = join b!"," k.columns)
    (hfr : k.constraintName ∉ ks.map (·.constraintName)) :
    ∃ p', parsePrimaryKeyUniqueModifier dn
        (flat (.mk [] (kindName k.constraintType) [] v (deferModifier k))) columns p = some p' ∧
      St sn tn c0 ex cols (ks ++ [keyImage sn tn cat.currentSchema k]) xs p' := by
  obtain ⟨v', hp, hv'⟩ := parse_flat hcl rfl
  have hname : keyName (dialectOf dn) tn k.constraintType k.columns = k.constraintName := by
    rw [← htn]; exact keyName_eq hk (by rcases hty with h | h <;> simp [h])
  have := key_core (dn := dn) (kc := k.columns) (type := k.constraintType) h hp rfl
    (by
      show (if toUpper (kindName k.constraintType) = UNIQUE then UNIQUE else PRIMARY_KEY) = _
      rcases hty with h | h <;> rw [h] <;> decide)
    (valueColumns_ok hv' hv hk.columns.1 hgo)
    hk.columns.1 (by
      intro s hs
      change s ∈ (deferModifier k).map flat at hs
      rw [defer_flat] at hs
      rcases mem_defer hs with rfl | rfl
      · exact ⟨rfl, by decide⟩
      · exact ⟨rfl, by decide⟩) (by rw [hname]; exact hfr)
  change ∃ p', _ ∧ St sn tn c0 ex cols (ks ++ [((deferModifier k).map flat).foldl _ _]) xs p' at this
  have hno := hk.noRef (by rcases hty with h | h <;> rw [h] <;> decide)
  have himg : keyImage sn tn cat.currentSchema k =
      { newKey sn tn k.constraintName k.constraintType k.columns with
        isDeferrable := k.isDeferrable, isInitiallyDeferred := k.isInitiallyDeferred } := by
    unfold keyImage newKey
    obtain ⟨e1, e2, e3, e4, e5⟩ := hno
    rw [e1, e2, e3, e4, e5]
    rfl
  rw [hname, defer_flat, defer_fold hk _ rfl rfl, ← himg] at this
  exact this

end

end Sqddl.Structs
