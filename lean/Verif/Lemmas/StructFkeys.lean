import Verif.Lemmas.StructKeys

/-!
# Reading foreign keys
-/

namespace Sqddl.Structs
open Go StructSpec ModifierSpec

/-! ## The text of the referenced columns -/

theorem cutDot_append {a b : Str} (ha : '.' ∉ a) : cutDot (a ++ '.' :: b) = some (a, b) := by
  have h1 : (a ++ '.' :: b).takeWhile (· ≠ '.') = a := by
    rw [List.takeWhile_append_of_pos (by intro c hc; simp; rintro rfl; exact ha hc)]
    simp
  have h2 : (a ++ '.' :: b).dropWhile (· ≠ '.') = '.' :: b := by
    rw [List.dropWhile_append_of_pos (by intro c hc; simp; rintro rfl; exact ha hc)]
    simp
  unfold cutDot
  rw [if_pos (by simp), h1, h2]
  rfl

theorem cutDot_none {a : Str} (ha : '.' ∉ a) : cutDot a = none := by
  unfold cutDot; rw [if_neg ha]

theorem isPrefixOf_eq {l l' : List Str} (h : l'.length = l.length) :
    l.isPrefixOf l' = true ↔ l = l' := by
  rw [List.isPrefixOf_iff_prefix]
  constructor
  · intro hp; exact hp.eq_of_length h.symm
  · rintro rfl; exact List.prefix_rfl

theorem setReferences_text {d : Dialect} {cat : Catalog} {k : Constraint} (hr : RefFits d cat k)
    (hn : RefNames cat k) (l : Constraint) (hl : l.referencesSchema = []) :
    setReferences (referencesText cat.currentSchema k) k.columns l =
      { l with
        referencesSchema := if k.referencesSchema ≠ [] ∧ k.referencesSchema ≠ cat.currentSchema
          then k.referencesSchema else []
        referencesTable := k.referencesTable, referencesColumns := k.referencesColumns } := by
  have ht : '.' ∉ k.referencesTable := goName_not hn.table (by decide)
  have hs : '.' ∉ k.referencesSchema := fun h => hn.schema '.' h (by simp)
  have hc := dot_not_join hn.columns.2
  have hsp := splitComma_join hn.columns.1 fun s hs => goName_comma (hn.columns.2 s hs)
  unfold referencesText
  by_cases h : k.referencesSchema ≠ [] ∧ k.referencesSchema ≠ cat.currentSchema
  · have hne : ¬ k.columns.isPrefixOf k.referencesColumns = true := by
      rw [isPrefixOf_eq hr.length]
      exact hr.distinct (by rw [resolve, if_neg h.1]; exact h.2)
    rw [if_pos h, if_neg hne, if_pos h]
    have e : k.referencesSchema ++ b!"." ++ k.referencesTable ++ (b!"." ++ join b!"," k.referencesColumns) =
        k.referencesSchema ++ '.' :: (k.referencesTable ++ '.' :: join b!"," k.referencesColumns) := by
      simp
    rw [e]
    unfold setReferences
    rw [cutDot_append hs]
    show (cutDot (k.referencesTable ++ '.' :: join b!"," k.referencesColumns)).elim _ _ = _
    rw [cutDot_append ht]
    show ({ l with referencesSchema := k.referencesSchema, referencesTable := k.referencesTable,
                   referencesColumns := splitComma (join b!"," k.referencesColumns) } : Constraint) = _
    rw [hsp]
  · rw [if_neg h, if_neg h]
    by_cases hp : k.columns.isPrefixOf k.referencesColumns = true
    · rw [if_pos hp]
      have hp' := (isPrefixOf_eq hr.length).1 hp
      rw [List.nil_append, List.append_nil]
      unfold setReferences
      rw [cutDot_none ht]
      show ({ l with referencesTable := k.referencesTable, referencesColumns := k.columns } : Constraint) = _
      rw [← hl, hp']
    · rw [if_neg hp, List.nil_append]
      show setReferences (k.referencesTable ++ '.' :: join b!"," k.referencesColumns) _ _ = _
      unfold setReferences
      rw [cutDot_append ht]
      show (cutDot (join b!"," k.referencesColumns)).elim _ _ = _
      rw [cutDot_none hc]
      show ({ l with referencesTable := k.referencesTable,
                     referencesColumns := splitComma (join b!"," k.referencesColumns) } : Constraint) = _
      rw [hsp, ← hl]

theorem referencesText_ne {cat : Catalog} {k : Constraint} (hn : RefNames cat k) :
    referencesText cat.currentSchema k ≠ [] := by
  unfold referencesText
  intro e
  have := hn.table.1
  simp at e
  exact this e.2.1

/-! ## The submodifiers -/

theorem flat_val (n : Str) {v : Str} (hv : ' ' ∉ v) : flat (val n v) = raw n v := by
  simp only [flat, val, raw, Modifier.name, content]
  by_cases h : v = []
  · simp [h]
  · simp [h, hv, contents]

theorem space_rule {r : Str}
    (hr : r ∈ [[], b!"NO ACTION", b!"RESTRICT", b!"CASCADE", b!"SET NULL", b!"SET DEFAULT"]) :
    ' ' ∉ toLower (r.filter (· ≠ ' ')) := by
  simp only [List.mem_cons, List.not_mem_nil, or_false] at hr
  rcases hr with rfl | rfl | rfl | rfl | rfl | rfl <;> decide

section
variable {dn : Str} {isRef : Bool} {columns : List Str} {i : Nat} {p : Parser} {m : Modifier}

theorem fkeySub_update (hd : m.dialects = []) (hn : m.name = b!"onupdate") :
    fkeySub dn isRef columns i p m = some ((ruleOf (dialectOf dn) m.raw).elim p.report fun r =>
      p.setConstraint i fun k => { k with updateRule := r }) := by
  unfold fkeySub
  rw [excludes_nil hd, hn]
  rfl

theorem fkeySub_delete (hd : m.dialects = []) (hn : m.name = b!"ondelete") :
    fkeySub dn isRef columns i p m = some ((ruleOf (dialectOf dn) m.raw).elim p.report fun r =>
      p.setConstraint i fun k => { k with deleteRule := r }) := by
  unfold fkeySub
  rw [excludes_nil hd, hn]
  rfl

theorem fkeySub_defer (hd : m.dialects = []) (hn : m.name = b!"deferrable" ∨ m.name = b!"deferred") :
    fkeySub dn isRef columns i p m = some (p.setConstraint i fun k => deferSub (dialectOf dn) k m) := by
  unfold fkeySub
  rcases hn with hn | hn
  · rw [excludes_nil hd, hn]
    rfl
  · rw [excludes_nil hd, hn]
    rfl

theorem fkeySub_index (hd : m.dialects = []) (hn : m.name = b!"index") :
    fkeySub dn isRef columns i p m = parseIndexModifier dn m columns p := by
  unfold fkeySub
  rw [excludes_nil hd, hn]
  rfl

end

theorem ruleOf_text {d : Dialect} {r : Str}
    (hr : r ∈ [[], b!"NO ACTION", b!"RESTRICT", b!"CASCADE", b!"SET NULL", b!"SET DEFAULT"])
    (hd : d = .sqlserver → r ≠ b!"RESTRICT") (h : r ≠ [] ∧ r ≠ NO_ACTION) :
    ruleOf d (toLower (r.filter (· ≠ ' '))) = some r := by
  simp only [List.mem_cons, List.not_mem_nil, or_false] at hr
  rcases hr with rfl | rfl | rfl | rfl | rfl | rfl
  · exact absurd rfl h.1
  · exact absurd rfl h.2
  · have hd' : ¬ d = .sqlserver := fun e => hd e rfl
    show ruleOf d b!"restrict" = _
    unfold ruleOf
    rw [if_neg (show ¬ (b!"restrict" : Str) = b!"cascade" by decide), if_pos rfl, if_neg hd']
    rfl
  · rfl
  · rfl
  · rfl

/-- The indexes on the columns of a foreign key. -/
def idxOf (t : Table) (k : Constraint) : List Index :=
  if k.constraintType = FOREIGN_KEY then t.indexes.filter fun x => x.columns == k.columns else []

/-- The submodifiers of a foreign key after the first one. -/
def restSubs (k : Constraint) (X : List Index) : List Modifier :=
  ruleModifier b!"onupdate" k.updateRule ++ ruleModifier b!"ondelete" k.deleteRule ++ deferModifier k ++
    X.map fun x => noValue (indexModifier x)

section
variable {dn sn tn : Str} {c0 : CatalogCache} {ex : List (Str × Str × Str)} {cols : List Column}
variable {ks : List Constraint} {xs : List Index} {cat : Catalog} {t : Table} {k l : Constraint}

theorem fk_update (isRef : Bool) (columns : List Str) (hr : RefFits (dialectOf dn) cat k)
    (hl : l.updateRule = []) :
    Runs (fkeySub dn isRef columns ks.length) (St sn tn c0 ex cols (ks ++ [l]) xs)
      (St sn tn c0 ex cols (ks ++ [{ l with updateRule := ruleImage k.updateRule }]) xs)
      ((ruleModifier b!"onupdate" k.updateRule).map flat) := by
  unfold ruleModifier ruleImage
  by_cases h : k.updateRule ≠ [] ∧ k.updateRule ≠ NO_ACTION
  · rw [if_pos h, if_neg h.2, List.map_singleton, flat_val _ (space_rule hr.update)]
    refine Runs.single fun p hp => ?_
    refine ⟨_, ?_, hp.setConstraint (f := fun c => { c with updateRule := k.updateRule }) rfl rfl
      (hp.ksLive l (by simp))⟩
    rw [fkeySub_update rfl rfl]
    show some ((ruleOf (dialectOf dn) (toLower (k.updateRule.filter (· ≠ ' ')))).elim _ _) = _
    rw [ruleOf_text hr.update (fun e => (hr.noRestrict e).1) h]
    rfl
  · rw [if_neg h]
    have e : (if k.updateRule = NO_ACTION then [] else k.updateRule) = ([] : Str) := by
      split
      · rfl
      · rename_i h2; exact Classical.not_not.1 fun h1 => h ⟨h1, h2⟩
    rw [e]
    have e2 : ({ l with updateRule := [] } : Constraint) = l := by rw [← hl]
    rw [e2]
    exact Runs.nil fun _ h => h

theorem fk_delete (isRef : Bool) (columns : List Str) (hr : RefFits (dialectOf dn) cat k)
    (hl : l.deleteRule = []) :
    Runs (fkeySub dn isRef columns ks.length) (St sn tn c0 ex cols (ks ++ [l]) xs)
      (St sn tn c0 ex cols (ks ++ [{ l with deleteRule := ruleImage k.deleteRule }]) xs)
      ((ruleModifier b!"ondelete" k.deleteRule).map flat) := by
  unfold ruleModifier ruleImage
  by_cases h : k.deleteRule ≠ [] ∧ k.deleteRule ≠ NO_ACTION
  · rw [if_pos h, if_neg h.2, List.map_singleton, flat_val _ (space_rule hr.delete)]
    refine Runs.single fun p hp => ?_
    refine ⟨_, ?_, hp.setConstraint (f := fun c => { c with deleteRule := k.deleteRule }) rfl rfl
      (hp.ksLive l (by simp))⟩
    rw [fkeySub_delete rfl rfl]
    show some ((ruleOf (dialectOf dn) (toLower (k.deleteRule.filter (· ≠ ' ')))).elim _ _) = _
    rw [ruleOf_text hr.delete (fun e => (hr.noRestrict e).2) h]
    rfl
  · rw [if_neg h]
    have e : (if k.deleteRule = NO_ACTION then [] else k.deleteRule) = ([] : Str) := by
      split
      · rfl
      · rename_i h2; exact Classical.not_not.1 fun h1 => h ⟨h1, h2⟩
    rw [e]
    have e2 : ({ l with deleteRule := [] } : Constraint) = l := by rw [← hl]
    rw [e2]
    exact Runs.nil fun _ h => h

theorem fk_defer (isRef : Bool) (columns : List Str) (hk : KeyFits (dialectOf dn) cat t k)
    (h1 : l.isDeferrable = false) (h2 : l.isInitiallyDeferred = false) :
    Runs (fkeySub dn isRef columns ks.length) (St sn tn c0 ex cols (ks ++ [l]) xs)
      (St sn tn c0 ex cols (ks ++ [{ l with isDeferrable := k.isDeferrable, isInitiallyDeferred := k.isInitiallyDeferred }]) xs)
      ((deferModifier k).map flat) := by
  rw [defer_flat, ← defer_fold hk l h1 h2]
  have hmem := fun m => mem_defer (k := k) (m := m)
  revert hmem
  have hlen : deferModifier k = [] ∨ ∃ m, deferModifier k = [m] := by
    unfold deferModifier
    split
    · exact Or.inr ⟨_, rfl⟩
    · exact Or.inl rfl
  rcases hlen with e | ⟨m, e⟩
  · rw [e]; intro _; exact Runs.nil fun _ h => h
  · rw [e]
    intro hmem
    refine Runs.single fun p hp => ?_
    refine ⟨_, ?_, hp.setConstraint (f := fun c => deferSub (dialectOf dn) c m) (deferSub_keeps _ _ _).1
      (deferSub_keeps _ _ _).2.1 ((deferSub_keeps _ _ _).2.2.trans (hp.ksLive l (by simp)))⟩
    exact fkeySub_defer (by rcases hmem m (by simp) with rfl | rfl <;> rfl)
      (by rcases hmem m (by simp) with rfl | rfl
          · exact Or.inr rfl
          · exact Or.inl rfl)

theorem idxImage_names (sn tn : Str) (X : List Index) :
    (X.map (idxImage sn tn)).map (·.indexName) = X.map (·.indexName) := by
  rw [List.map_map]; rfl

theorem fk_indexes (isRef : Bool) {columns : List Str} {i : Nat} {X : List Index}
    (hX : ∀ x ∈ X, IndexFits (dialectOf dn) t x ∧ (∀ n ∈ x.columns, GoName n) ∧ x.columns = columns ∧
      Clean (indexModifier x))
    (htn : t.tableName = tn) (hnd : (xs.map (·.indexName) ++ X.map (·.indexName)).Nodup) :
    Runs (fkeySub dn isRef columns i) (St sn tn c0 ex cols ks xs)
      (St sn tn c0 ex cols ks (xs ++ X.map (idxImage sn tn)))
      ((X.map fun x => noValue (indexModifier x)).map flat) := by
  rw [List.map_map]
  have := Runs.list (step := fkeySub dn isRef columns i)
    (f := flat ∘ fun x => noValue (indexModifier x))
    (fun pre => St sn tn c0 ex cols ks (xs ++ pre.map (idxImage sn tn))) X (by
      intro pre x post e p hp
      obtain ⟨hx1, hx2, hx3, hx4⟩ := hX x (by rw [e]; simp)
      have hfr : x.indexName ∉ (xs ++ pre.map (idxImage sn tn)).map (·.indexName) := by
        rw [List.map_append, idxImage_names]
        rw [e, List.map_append, List.map_cons, ← List.append_assoc, List.nodup_append] at hnd
        intro hm
        exact hnd.2.2 _ hm _ (by simp) rfl
      have hcl : Clean (noValue (indexModifier x)) := clean_noValue hx4
      rw [noValue_index] at hcl
      obtain ⟨p', e', hp'⟩ := index_ok (dn := dn) hp hx1 hx2 htn hcl (Or.inl ⟨rfl, hx3.symm⟩) hfr
      refine ⟨p', ?_, ?_⟩
      · dsimp only [Function.comp]
        rw [fkeySub_index rfl rfl]
        exact e'
      · rw [List.map_append, List.map_singleton, ← List.append_assoc]
        exact hp')
  rw [List.map_nil, List.append_nil] at this
  exact this

theorem fk_rest (isRef : Bool) {X : List Index} (hk : KeyFits (dialectOf dn) cat t k)
    (hfk : k.constraintType = FOREIGN_KEY)
    (hX : ∀ x ∈ X, IndexFits (dialectOf dn) t x ∧ (∀ n ∈ x.columns, GoName n) ∧ x.columns = k.columns ∧
      Clean (indexModifier x))
    (htn : t.tableName = tn) (hnd : (xs.map (·.indexName) ++ X.map (·.indexName)).Nodup)
    (h1 : l.isDeferrable = false) (h2 : l.isInitiallyDeferred = false) (h3 : l.updateRule = [])
    (h4 : l.deleteRule = []) :
    Runs (fkeySub dn isRef k.columns ks.length) (St sn tn c0 ex cols (ks ++ [l]) xs)
      (St sn tn c0 ex cols (ks ++ [{ l with
          updateRule := ruleImage k.updateRule, deleteRule := ruleImage k.deleteRule
          isDeferrable := k.isDeferrable, isInitiallyDeferred := k.isInitiallyDeferred }])
        (xs ++ X.map (idxImage sn tn)))
      ((restSubs k X).map flat) := by
  unfold restSubs
  simp only [List.map_append]
  have hr := hk.ref hfk
  refine Runs.append (Runs.append (Runs.append (fk_update isRef k.columns hr h3)
    (fk_delete isRef k.columns hr h4)) (fk_defer isRef k.columns hk h1 h2)) ?_
  exact fk_indexes isRef hX htn hnd

end

/-! ## Foreign keys -/

section
variable {dn sn tn : Str} {c0 : CatalogCache} {ex : List (Str × Str × Str)} {cols : List Column}
variable {ks : List Constraint} {xs : List Index} {p : Parser} {cat : Catalog} {t : Table} {k : Constraint}

theorem parseForeignKey_eq {m m' : Modifier} {v : Str} {subs : List Modifier}
    (hp : parseRawValue m = (m', true)) (hv : m'.value = v) (hs : m'.subs = subs) (hd : m'.dialects = [])
    (h1 : v ≠ []) (h2 : v ≠ b!".") (h3 : subs.isEmpty = false) :
    parseForeignKeyModifier dn m p =
      ((p.locate (generateName .foreignKey p.table.tableName (splitComma v))).cache.getOrCreateConstraint
          p.table (generateName .foreignKey p.table.tableName (splitComma v)) FOREIGN_KEY (splitComma v)).bind
        fun g => subs.foldlM (fkeySub dn false (splitComma v) g.2.2)
          (({ p.locate (generateName .foreignKey p.table.tableName (splitComma v)) with
              table := g.1, cache := g.2.1 } : Parser).setConstraint g.2.2 fun k =>
            { k with tableSchema := p.table.tableSchema, tableName := p.table.tableName, ignore := false }) := by
  unfold parseForeignKeyModifier
  rw [hp]
  dsimp only
  rw [hv, hs, excludes_nil hd, if_neg]
  · rfl
  · rintro (h | h | h | h)
    · exact absurd h (by decide)
    · exact h1 h
    · exact h2 h
    · rw [h3] at h; exact absurd h (by decide)

/-- A foreign key in a table. -/
theorem fkey_ok (h : St sn tn c0 ex cols ks xs p) {X : List Index}
    (hk : KeyFits (dialectOf dn) cat t k) (hgo : ∀ n ∈ k.columns, GoName n) (htn : t.tableName = tn)
    (hfk : k.constraintType = FOREIGN_KEY) (hn : RefNames cat k)
    (hX : ∀ x ∈ X, IndexFits (dialectOf dn) t x ∧ (∀ n ∈ x.columns, GoName n) ∧ x.columns = k.columns ∧
      Clean (indexModifier x))
    (hcl : Clean (.mk [] b!"foreignkey" [] (join b!"," k.columns)
      (raw b!"references" (referencesText cat.currentSchema k) :: restSubs k X)))
    (hfr : k.constraintName ∉ ks.map (·.constraintName))
    (hnd : (xs.map (·.indexName) ++ X.map (·.indexName)).Nodup) :
    ∃ p', parseForeignKeyModifier dn (flat (.mk [] b!"foreignkey" [] (join b!"," k.columns)
        (raw b!"references" (referencesText cat.currentSchema k) :: restSubs k X))) p = some p' ∧
      St sn tn c0 ex cols (ks ++ [keyImage sn tn cat.currentSchema k]) (xs ++ X.map (idxImage sn tn)) p' := by
  obtain ⟨v', hp, hv'⟩ := parse_flat hcl rfl
  have hj := join_ne_nil hk.columns.1 hgo
  have hv : v' = join b!"," k.columns := by
    rcases hv' with h | h
    · exact h
    · exact absurd h.1 hj
  subst hv
  have hdot : join b!"," k.columns ≠ b!"." := fun e => dot_not_join hgo (by rw [e]; simp)
  have hsp := splitComma_join hk.columns.1 fun s hs => goName_comma (hgo s hs)
  have hname : generateName .foreignKey tn k.columns = k.constraintName := by
    rw [← htn]
    have := keyName_eq hk (Or.inr (Or.inr hfk))
    rw [hfk, keyName, if_neg (fun e => absurd e.2 (by decide))] at this
    exact this
  have htab : p.table.tableName = tn := by rw [h.table]
  have htab2 : p.table.tableSchema = sn := by rw [h.table]
  rw [parseForeignKey_eq (v := join b!"," k.columns)
    (subs := (raw b!"references" (referencesText cat.currentSchema k) :: restSubs k X).map flat) hp rfl rfl rfl hj hdot rfl, hsp, htab, htab2, hname]
  obtain ⟨t', c', e, h2⟩ := (h.locate k.constraintName).newConstraint (columns := k.columns)
    (type := FOREIGN_KEY) hfr
  have e0 : (p.locate k.constraintName).cache.getOrCreateConstraint p.table k.constraintName FOREIGN_KEY
      k.columns = some (t', c', ks.length) := e
  rw [e0, Option.bind_some, List.map_cons, flat_raw]
  have h3 := h2.setConstraint (f := fun k => { k with tableSchema := sn, tableName := tn, ignore := false })
    rfl rfl rfl
  have h4 := h3.setConstraint (f := setReferences (referencesText cat.currentSchema k) k.columns)
    (by rw [setReferences_text (hk.ref hfk) hn _ rfl]) (by rw [setReferences_text (hk.ref hfk) hn _ rfl])
    (by rw [setReferences_text (hk.ref hfk) hn _ rfl])
  rw [setReferences_text (hk.ref hfk) hn _ rfl] at h4
  obtain ⟨p', e', h5⟩ := fk_rest false hk hfk hX htn hnd rfl rfl rfl rfl _ h4
  refine ⟨p', ?_, ?_⟩
  · rw [List.foldlM_cons]
    rw [← e']
    rfl
  · unfold keyImage
    rw [hfk]
    exact h5

/-- A foreign key at a column. -/
theorem references_ok (h : St sn tn c0 ex cols ks xs p) {X : List Index} {n : Str}
    (hk : KeyFits (dialectOf dn) cat t k) (hgo : GoName n) (hkc : k.columns = [n]) (htn : t.tableName = tn)
    (hfk : k.constraintType = FOREIGN_KEY) (hn : RefNames cat k)
    (hX : ∀ x ∈ X, IndexFits (dialectOf dn) t x ∧ (∀ n ∈ x.columns, GoName n) ∧ x.columns = k.columns ∧
      Clean (indexModifier x))
    (hcl : Clean (.mk [] b!"references" [] (referencesText cat.currentSchema k) (restSubs k X)))
    (hfr : k.constraintName ∉ ks.map (·.constraintName))
    (hnd : (xs.map (·.indexName) ++ X.map (·.indexName)).Nodup) :
    ∃ p', parseReferencesModifier dn (flat (.mk [] b!"references" []
        (referencesText cat.currentSchema k) (restSubs k X))) n p = some p' ∧
      St sn tn c0 ex cols (ks ++ [keyImage sn tn cat.currentSchema k]) (xs ++ X.map (idxImage sn tn)) p' := by
  obtain ⟨v', hp, hv'⟩ := parse_flat hcl rfl
  have hv : v' = referencesText cat.currentSchema k := by
    rcases hv' with h | h
    · exact h
    · exact absurd h.1 (referencesText_ne hn)
  subst hv
  have hname : generateName .foreignKey tn k.columns = k.constraintName := by
    rw [← htn]
    have := keyName_eq hk (Or.inr (Or.inr hfk))
    rw [hfk, keyName, if_neg (fun e => absurd e.2 (by decide))] at this
    exact this
  have htab : p.table.tableName = tn := by rw [h.table]
  have htab2 : p.table.tableSchema = sn := by rw [h.table]
  have hne : n.isEmpty = false := by
    cases n with
    | nil => exact absurd rfl hgo.1
    | cons => rfl
  unfold parseReferencesModifier
  rw [hp]
  dsimp only [Modifier.value, Modifier.subs]
  rw [if_neg (by simp), htab, ← hkc, hname]
  obtain ⟨t', c', e, h2⟩ := ((h.reportIf hne).locate k.constraintName).newConstraint (columns := k.columns)
    (type := FOREIGN_KEY) hfr
  rw [e, Option.bind_some]
  have e1 : ((p.reportIf n.isEmpty).locate k.constraintName).table = p.table := rfl
  rw [e1, htab, htab2]
  have h4 := h2.setConstraint (f := fun l => setReferences (referencesText cat.currentSchema k) k.columns
      { l with tableSchema := sn, tableName := tn, ignore := false })
    (by rw [setReferences_text (hk.ref hfk) hn _ rfl]) (by rw [setReferences_text (hk.ref hfk) hn _ rfl])
    (by rw [setReferences_text (hk.ref hfk) hn _ rfl])
  rw [setReferences_text (hk.ref hfk) hn _ rfl] at h4
  obtain ⟨p', e', h5⟩ := fk_rest true hk hfk hX htn hnd rfl rfl rfl rfl _ h4
  refine ⟨p', ?_, ?_⟩
  · rw [← e']
    rfl
  · unfold keyImage
    rw [hfk]
    exact h5

end

end Sqddl.Structs
