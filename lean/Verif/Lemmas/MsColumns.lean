import Verif.Lemmas.MsSteps
import Verif.Props.MsFkeys
import Verif.Props.TypeArgs

/-!
# What a SQL Server migration does to a column
-/

namespace MsSpec
open SqlSpec Sqddl DdlText DdlSpec EngineSpec Sqddl.Sqlserver
open MsText (Act Differs)
open PgSpec (withTable_self withTable_other withTable_eq put_put put_eq)

/-! ## Types and defaults that compare as equal -/

/-- Types that compare as equal. -/
theorem sameType {a b : Str} (h : normType .sqlserver a = normType .sqlserver b) : SameType a b :=
  normType_same_partial h

theorem sameDefault {a b : Str} (ha : Go.trimSpace a = a) (hb : Go.trimSpace b = b)
    (h : normalizeColumnDefault .sqlserver a = normalizeColumnDefault .sqlserver b) :
    SameDefault .sqlserver a b := by
  have := normalizeColumnDefault_distinguishes_partial .sqlserver a b (fun e => by cases e)
    (fun e => by cases e) h
  rwa [ha, hb] at this

/-- The normalised default is a spelling of the default. -/
theorem same_normalized {x : Str} (h : Go.trimSpace x = x) :
    SameDefault .sqlserver (normalizeColumnDefault .sqlserver x) x := by
  have h1 := default_classify .sqlserver x (fun e => by cases e)
  simp only [h] at h1
  generalize normalizeColumnDefault .sqlserver x = r at h1
  have hu1 : Go.toUpper b!"'1'" = b!"'1'" := by decide
  have hu2 : Go.toUpper b!"'0'" = b!"'0'" := by decide
  have hu3 : Go.toUpper b!"CURRENT_TIMESTAMP" = b!"CURRENT_TIMESTAMP" := by decide
  have hx := toUpper_idem x
  have m1 : ∀ u ∈ [b!"1", b!"TRUE"], u ∈ [b!"1", b!"TRUE", b!"'1'"] := by decide
  have m2 : b!"'1'" ∈ [b!"1", b!"TRUE", b!"'1'"] := by decide
  have m3 : ∀ u ∈ [b!"0", b!"FALSE"], u ∈ [b!"0", b!"FALSE", b!"'0'"] := by decide
  have m4 : b!"'0'" ∈ [b!"0", b!"FALSE", b!"'0'"] := by decide
  have hn : b!"CURRENT_TIMESTAMP" ∈ nowNames .sqlserver := by decide
  unfold SameDefault
  rcases h1 with ⟨h, rfl⟩ | ⟨h, rfl⟩ | ⟨h, rfl⟩ | ⟨h, rfl⟩ | rfl
  · exact Or.inr (Or.inl ⟨by rw [hu1]; exact m2, m1 _ h⟩)
  · exact Or.inr (Or.inr (Or.inl ⟨by rw [hu2]; exact m4, m3 _ h⟩))
  · exact Or.inr (Or.inr (Or.inr (Or.inl ⟨hx, by rw [hx]; exact h⟩)))
  · exact Or.inr (Or.inr (Or.inr (Or.inr ⟨by rw [hu3]; exact hn, h⟩)))
  · exact Or.inl rfl

theorem toUpper_nil : Go.toUpper ([] : Str) = [] := rfl

theorem sameDefault_nil {x y : Str} (h : SameDefault .sqlserver x y) : x = [] ↔ y = [] := by
  have h0 : ∀ z : Str, Go.toUpper z = [] ↔ z = [] := by intro z; simp [Go.toUpper]
  have n1 : ([] : Str) ∉ [b!"1", b!"TRUE", b!"'1'"] := by decide
  have n2 : ([] : Str) ∉ [b!"0", b!"FALSE", b!"'0'"] := by decide
  have n3 : ([] : Str) ∉ [b!"CURRENT_DATE", b!"CURRENT_TIME", b!"NULL"] := by decide
  have n4 : ([] : Str) ∉ nowNames .sqlserver := by decide
  unfold SameDefault at h
  constructor
  · intro e
    subst e
    rcases h with h | ⟨h, _⟩ | ⟨h, _⟩ | ⟨_, h⟩ | ⟨h, _⟩
    · exact h.symm
    · exact absurd h n1
    · exact absurd h n2
    · exact absurd h n3
    · exact absurd h n4
  · intro e
    subst e
    rcases h with h | ⟨_, h⟩ | ⟨_, h⟩ | ⟨h', h⟩ | ⟨_, h⟩
    · exact h
    · exact absurd h n1
    · exact absurd h n2
    · rw [h'] at h; exact absurd h n3
    · exact absurd h n4

theorem normalize_nil {x : Str} (h : Go.trimSpace x = x) :
    normalizeColumnDefault .sqlserver x = [] ↔ x = [] := sameDefault_nil (same_normalized h)

/-! ## The change of a column -/

/-- An ALTER COLUMN is written. -/
def Emits (e : Env) (pk : List Str) (a b : Column) : Prop :=
  normType .sqlserver a.columnType ≠ normType .sqlserver b.columnType ∨
    collationAct e b ≠ none ∨ nullAct pk a b ≠ none

instance (e : Env) (pk : List Str) (a b : Column) : Decidable (Emits e pk a b) := by
  unfold Emits; infer_instance

/-- The column after ALTER COLUMN, if there is one. -/
def typedCol (e : Env) (pk : List Str) (a b : Column) : Col :=
  if Emits e pk a b then
    altered (colOf .sqlserver e.coll false a) ((toks .sqlserver b.columnType).map foldTok)
      (collationAct e b) (nullAct pk a b)
  else colOf .sqlserver e.coll false a

/-- The column after the migration. -/
def endCol (e : Env) (pk : List Str) (a b : Column) : Col :=
  let sd := normalizeColumnDefault .sqlserver a.columnDefault
  let td := normalizeColumnDefault .sqlserver b.columnDefault
  if sd = td then typedCol e pk a b
  else { typedCol e pk a b with default := if td = [] then none else some (toks .sqlserver td) }

theorem typedCol_keeps (e : Env) (pk : List Str) (a b : Column) :
    (typedCol e pk a b).default = (colOf .sqlserver e.coll false a).default ∧
    (typedCol e pk a b).identity = (colOf .sqlserver e.coll false a).identity ∧
    (typedCol e pk a b).generated = (colOf .sqlserver e.coll false a).generated ∧
    (typedCol e pk a b).name = a.columnName := by
  unfold typedCol
  split <;> exact ⟨rfl, rfl, rfl, rfl⟩

theorem endCol_keeps (e : Env) (pk : List Str) (a b : Column) :
    (endCol e pk a b).identity = (colOf .sqlserver e.coll false a).identity ∧
    (endCol e pk a b).generated = (colOf .sqlserver e.coll false a).generated ∧
    (endCol e pk a b).name = a.columnName ∧
    (endCol e pk a b).type = (typedCol e pk a b).type ∧
    (endCol e pk a b).notNull = (typedCol e pk a b).notNull ∧
    (endCol e pk a b).collation = (typedCol e pk a b).collation := by
  obtain ⟨_, h2, h3, h4⟩ := typedCol_keeps e pk a b
  unfold endCol
  dsimp only
  split
  · exact ⟨h2, h3, h4, rfl, rfl, rfl⟩
  · exact ⟨h2, h3, h4, rfl, rfl, rfl⟩

theorem colOf_default (coll : Str) (a : Column) :
    (colOf .sqlserver coll false a).default =
      if a.columnDefault = [] then none else some (toks .sqlserver a.columnDefault) := rfl

theorem colOf_collation (coll : Str) (a : Column) :
    (colOf .sqlserver coll false a).collation =
      if a.collationName = [] ∨ a.collationName = coll then none else some (.word a.collationName) := rfl

theorem collationAct_eq (e : Env) (b : Column) :
    collationAct e b = (colOf .sqlserver e.coll false b).collation := by
  rw [colOf_collation]
  unfold collationAct
  by_cases h1 : b.collationName = []
  · simp [h1]
  · by_cases h2 : b.collationName = e.coll
    · simp [h2]
    · simp [h1, h2]

theorem collation_getD (coll : Str) (b : Column) :
    (colOf .sqlserver coll false b).collation.getD (.word coll) = .word (collationOf coll b) := by
  rw [colOf_collation]
  unfold collationOf
  by_cases h1 : b.collationName = []
  · simp [h1]
  · by_cases h2 : b.collationName = coll
    · simp [h2]
    · simp [h1, h2]

theorem collation_congr {coll : Str} {a b : Column} (h : collationOf coll a = collationOf coll b) :
    (colOf .sqlserver coll false a).collation = (colOf .sqlserver coll false b).collation := by
  rw [colOf_collation, colOf_collation]
  unfold collationOf at h
  by_cases h1 : a.collationName = [] <;> by_cases h2 : b.collationName = []
  · simp [h1, h2]
  · rw [if_pos h1, if_neg h2] at h
    rw [if_pos (Or.inl h1), if_pos (Or.inr h.symm)]
  · rw [if_neg h1, if_pos h2] at h
    rw [if_pos (Or.inr h), if_pos (Or.inl h2)]
  · rw [if_neg h1, if_neg h2] at h
    rw [h]

theorem collation_none {coll : Str} {b : Column} :
    (colOf .sqlserver coll false b).collation = none ↔ collationOf coll b = coll := by
  rw [colOf_collation]
  unfold collationOf
  by_cases h1 : b.collationName = []
  · simp [h1]
  · simp [h1]

/-- A column that does not compare as different. -/
theorem not_different {coll : Str} {a b : Column} (h : columnsAreDifferent .sqlserver coll a b = false) :
    normType .sqlserver a.columnType = normType .sqlserver b.columnType ∧
    normalizeColumnDefault .sqlserver a.columnDefault = normalizeColumnDefault .sqlserver b.columnDefault ∧
    a.isNotNull = b.isNotNull ∧ collationOf coll a = collationOf coll b := by
  unfold columnsAreDifferent at h
  dsimp only at h
  simp only [Bool.or_eq_false_iff, decide_eq_false_iff_not, ne_eq, Decidable.not_not,
    bne_eq_false_iff_eq] at h
  obtain ⟨⟨⟨⟨h1, h2⟩, h3⟩, _⟩, h5⟩ := h
  exact ⟨h1, h2, h3, h5⟩

/-- A changed column compares as different. -/
theorem different {coll : Str} {a b : Column} (ha : Go.trimSpace a.columnDefault = a.columnDefault)
    (hb : Go.trimSpace b.columnDefault = b.columnDefault) (h : Changed coll a b) :
    columnsAreDifferent .sqlserver coll a b = true := by
  cases hd : columnsAreDifferent .sqlserver coll a b with
  | true => rfl
  | false =>
    exfalso
    obtain ⟨h1, h2, h3, h4⟩ := not_different hd
    rcases h with h | h | h | h
    · exact h (sameType h1)
    · exact h (sameDefault ha hb h2)
    · exact h h3
    · exact h h4

section
variable {e : Env} {pk : List Str} {pkey : Prop} {a b : Column} (h : Alterable e.coll pkey a b)
  (hpk : pk.contains b.columnName = true ↔ pkey)

include h in
theorem defaultIs_same (hn : normalizeColumnDefault .sqlserver a.columnDefault =
      normalizeColumnDefault .sqlserver b.columnDefault) :
    DefaultIs b.columnDefault (colOf .sqlserver e.coll false a).default := by
  have hs := sameDefault h.defaults.1 h.defaults.2 hn
  rw [colOf_default]
  split
  · rename_i h1
    exact (sameDefault_nil hs).1 h1
  · exact ⟨_, rfl, hs⟩

include h in
theorem not_computed (hd : Differs a b) : a.generatedExpr = [] := by
  by_cases h1 : a.generatedExpr = []
  · exact h1
  · exact absurd hd (h.computed h1).1

include h in
/-- A column that does not compare as different is as it should be. -/
theorem same_reached (hd : columnsAreDifferent .sqlserver e.coll a b = false) :
    ColumnReached e.coll a b (colOf .sqlserver e.coll false a) := by
  obtain ⟨h1, h2, h3, h4⟩ := not_different hd
  refine ⟨h.name, Or.inr ⟨rfl, sameType h1⟩, ?_, ?_, defaultIs_same h h2, ?_, ?_⟩
  · simp only [colOf, computed, h3, h.generated.1]
  · simp only [colOf, h.identity]
  · rw [collation_getD, h4]
  · simp only [colOf, h.generated.1, h.generated.2]

include h hpk in
/-- The change of a column leads to what it should be. -/
theorem endCol_reached (hd : Differs a b) (hkey : pkey → b.isNotNull = true) :
    ColumnReached e.coll a b (endCol e pk a b) := by
  have hga := not_computed h hd
  have hgb : b.generatedExpr = [] := by rw [← h.generated.1]; exact hga
  obtain ⟨k1, k2, k3, k4, k5, k6⟩ := endCol_keeps e pk a b
  refine ⟨by rw [k3, h.name], ?_, ?_, ?_, ?_, ?_, ?_⟩
  · rw [k4]
    unfold typedCol
    split
    · left
      show (toks .sqlserver b.columnType).map foldTok = _
      simp [colOf, h.domain.2.1, h.domain.2.2.2, computed, hgb]
    · rename_i hE
      right
      refine ⟨rfl, sameType ?_⟩
      unfold Emits at hE
      simp only [not_or, Decidable.not_not] at hE
      exact hE.1
  · rw [k5]
    have hb : (colOf .sqlserver e.coll false b).notNull = b.isNotNull := by
      simp [colOf, computed, hgb]
    have ha : (colOf .sqlserver e.coll false a).notNull = a.isNotNull := by
      simp [colOf, computed, hga]
    rw [hb]
    have hi : b.columnIdentity ≠ [] → b.isNotNull = true := fun hi =>
      (h.identities (by rw [h.identity]; exact hi)).2.1
    by_cases hc : pk.contains b.columnName = true ∨ b.columnIdentity ≠ []
    · have hbn : b.isNotNull = true := hc.elim (fun hx => hkey (hpk.1 hx)) hi
      have hnull : nullAct pk a b = some true := if_pos hc
      have hE : Emits e pk a b := Or.inr (Or.inr (by rw [hnull]; simp))
      unfold typedCol
      rw [if_pos hE]
      show (nullAct pk a b == some true) = _
      rw [hnull, hbn]; rfl
    · have hnull : nullAct pk a b = if (a.isNotNull && !b.isNotNull) = true then some false else none :=
        if_neg hc
      cases hbn : b.isNotNull with
      | true =>
        obtain ⟨h1, h2⟩ := h.keeps hbn (fun hx => hc (Or.inl (hpk.2 hx)))
          (Decidable.not_not.1 fun hx => hc (Or.inr hx))
        obtain ⟨h3, h4⟩ := h2 hd
        have hE : ¬ Emits e pk a b := by
          unfold Emits
          rw [h3, hnull, hbn, collationAct_eq, collation_none.2 h4]
          simp
        unfold typedCol
        rw [if_neg hE, ha, h1]
      | false =>
        unfold typedCol
        by_cases hE : Emits e pk a b
        · rw [if_pos hE]
          show (nullAct pk a b == some true) = false
          rw [hnull]
          split <;> rfl
        · rw [if_neg hE, ha]
          cases han : a.isNotNull with
          | false => rfl
          | true =>
            exfalso
            apply hE
            right; right
            rw [hnull, han, hbn]
            simp
  · rw [k1]; simp only [colOf, h.identity]
  · unfold endCol
    dsimp only
    split
    · rename_i hn
      rw [(typedCol_keeps e pk a b).1]
      exact defaultIs_same h hn
    · dsimp only
      split
      · rename_i h1
        exact (normalize_nil h.defaults.2).1 h1
      · exact ⟨_, rfl, same_normalized h.defaults.2⟩
  · rw [k6]
    unfold typedCol
    split
    · show (collationAct e b).getD _ = _
      rw [collationAct_eq, collation_getD]
    · rename_i hE
      unfold Emits at hE
      simp only [not_or, Decidable.not_not] at hE
      have hcb := hE.2.1
      rw [collationAct_eq, collation_none] at hcb
      rw [collation_getD, hcb, h.collation hcb]
  · rw [k2]; simp only [colOf, h.generated.1, h.generated.2]

include h in
theorem endCol_default : (endCol e pk a b).default.isSome → b.columnDefault ≠ [] := by
  unfold endCol
  dsimp only
  split
  · rename_i hn
    rw [(typedCol_keeps e pk a b).1, colOf_default]
    split
    · intro h; cases h
    · rename_i h1
      intro _ h2
      exact h1 ((sameDefault_nil (sameDefault h.defaults.1 h.defaults.2 hn)).2 h2)
  · dsimp only
    split
    · intro h; cases h
    · rename_i h1
      intro _ h2
      exact h1 ((normalize_nil h.defaults.2).2 h2)

variable {N : Numbers} {db : Db} {t : Table}

include h hpk in
/-- The statements for a column are accepted, and change it. -/
theorem runs_column (hd : Differs a b) (hts : t.tableSchema ≠ []) (T : Tbl)
    (hc : T.col b.columnName = some (colOf .sqlserver e.coll false a)) (hu : Unused T b.columnName)
    (hpkc : pkeyColumns t = pk)
    (hfind : a.columnDefault ≠ [] → a.columnDefault ≠ b.columnDefault →
      ∀ c, c.default = (colOf .sqlserver e.coll false a).default →
      ∀ d, Candidate N (db.withTable (t.tableSchema, t.tableName)
        { T with col := put T.col b.columnName (some c) }) (t.tableSchema, t.tableName) b.columnName d →
        d = b.columnName) :
    Runs N (db.withTable (t.tableSchema, t.tableName) T) (columnOf e t (a, b))
      (db.withTable (t.tableSchema, t.tableName)
        { T with col := put T.col b.columnName (some (endCol e pk a b)) }) := by
  have hsch : alterSchema e t = t.tableSchema := if_pos hts
  have hkey : key (fullName e.cur t.tableSchema t.tableName) = (t.tableSchema, t.tableName) := by
    simp [fullName, key, hts]
  have hga := not_computed h hd
  have hgen : (colOf .sqlserver e.coll false a).generated = none := by simp [colOf, hga]
  unfold columnOf
  rw [hpkc, hsch]
  -- the type
  have r1 : Runs N (db.withTable (t.tableSchema, t.tableName) T)
      ((typeActs e pk a b).map (alterOne e.cur t.tableSchema t.tableName))
      (db.withTable (t.tableSchema, t.tableName)
        { T with col := put T.col b.columnName (some (typedCol e pk a b)) }) := by
    by_cases hE : Emits e pk a b
    · have e1 : typeActs e pk a b = [.alterColumn b.columnName ((toks .sqlserver b.columnType).map foldTok)
        (collationAct e b) (nullAct pk a b)] := if_pos hE
      have e2 : typedCol e pk a b = altered (colOf .sqlserver e.coll false a)
        ((toks .sqlserver b.columnType).map foldTok) (collationAct e b) (nullAct pk a b) := if_pos hE
      rw [e1, e2]
      have s : Steps db (t.tableSchema, t.tableName) T
          [.alterColumn b.columnName ((toks .sqlserver b.columnType).map foldTok)
            (collationAct e b) (nullAct pk a b)]
          { T with col := put T.col b.columnName (some (altered (colOf .sqlserver e.coll false a)
            ((toks .sqlserver b.columnType).map foldTok) (collationAct e b) (nullAct pk a b))) } := by
        refine ⟨⟨_, hc, hgen, ?_, ?_, hu⟩, ?_⟩
        · intro hdf
          have hda : a.columnDefault ≠ [] := by
            intro h0; rw [colOf_default, if_pos h0] at hdf; exact hdf rfl
          obtain ⟨h1, h2⟩ := h.held hda
          refine ⟨?_, ?_⟩
          · unfold typeHead at h1
            rw [← h1]
            simp [colOf, h.domain.1, h.domain.2.2.1, computed, hga]
          · rw [collationAct_eq]; exact collation_congr h2
        · intro hi
          have : a.columnIdentity ≠ [] := by
            intro h0
            simp [colOf, h0] at hi
          exact if_pos (Or.inr (by rw [← h.identity]; exact this))
        · show eff T (.alterColumn b.columnName ((toks .sqlserver b.columnType).map foldTok)
            (collationAct e b) (nullAct pk a b)) = _
          simp only [eff, hc, Option.map_some]
      have := runs_steps (N := N) (nm := fullName e.cur t.tableSchema t.tableName) (by rw [hkey]; exact s)
      rw [hkey] at this
      exact this
    · have e1 : typeActs e pk a b = [] := if_neg hE
      have e2 : typedCol e pk a b = colOf .sqlserver e.coll false a := if_neg hE
      rw [e1, e2, put_eq hc]
      rfl
  refine runs_append r1 ?_
  obtain ⟨k1, k2, k3, k4⟩ := typedCol_keeps e pk a b
  unfold defaultOf endCol
  dsimp only
  rw [hsch]
  split
  · rfl
  · rename_i hne
    have hab : a.columnDefault ≠ b.columnDefault := by intro h0; rw [h0] at hne; exact hne rfl
    generalize hT1 : ({ T with col := put T.col b.columnName (some (typedCol e pk a b)) } : Tbl) = T1
    have hc1 : T1.col b.columnName = some (typedCol e pk a b) := by subst hT1; exact put_self _ _ _
    have hT2 : ∀ c : Col, ({ T1 with col := put T1.col b.columnName (some c) } : Tbl) =
        { T with col := put T.col b.columnName (some c) } := by
      intro c; subst hT1; dsimp only; rw [put_put]
    -- the old default
    have r2 : Runs N (db.withTable (t.tableSchema, t.tableName) T1)
        (if normalizeColumnDefault .sqlserver a.columnDefault ≠ [] then
          [.dropDefault t.tableSchema t.tableName b.columnName (fullName e.cur t.tableSchema t.tableName)]
          else [])
        (db.withTable (t.tableSchema, t.tableName)
          { T with col := put T.col b.columnName (some { typedCol e pk a b with default := none }) }) := by
      by_cases hn : a.columnDefault = []
      · rw [if_neg (by rw [Decidable.not_not]; exact (normalize_nil h.defaults.1).2 hn)]
        have e3 : ({ typedCol e pk a b with default := none } : Col) = typedCol e pk a b := by
          have : (typedCol e pk a b).default = none := by rw [k1, colOf_default, if_pos hn]
          generalize typedCol e pk a b = c at this
          cases c; simp_all
        rw [e3, hT1]
        rfl
      · rw [if_pos (by intro h0; exact hn ((normalize_nil h.defaults.1).1 h0))]
        have hf := hfind hn hab (typedCol e pk a b) k1
        rw [hT1] at hf
        refine runs_one ⟨hkey, hf, T1, typedCol e pk a b, withTable_self _ _ _, hc1, ?_⟩ ?_
        · rw [k1, colOf_default, if_neg hn]; rfl
        · show changeTable _ (key (fullName e.cur t.tableSchema t.tableName)) _ = _
          rw [hkey, changeTable_withTable]
          congr 1
          rw [← hT2]
          unfold noDefault
          rw [hc1, Option.map_some]
    refine runs_append r2 ?_
    generalize hT3 : ({ T with col := put T.col b.columnName (some { typedCol e pk a b with default := none }) } : Tbl) = T3
    have hc3 : T3.col b.columnName = some { typedCol e pk a b with default := none } := by
      subst hT3; exact put_self _ _ _
    by_cases hn : b.columnDefault = []
    · have h0 := (normalize_nil h.defaults.2).2 hn
      rw [h0, if_neg (by simp), if_pos rfl, hT3]
      rfl
    · have h0 : normalizeColumnDefault .sqlserver b.columnDefault ≠ [] :=
        fun h0 => hn ((normalize_nil h.defaults.2).1 h0)
      rw [if_pos h0, if_neg h0]
      have s : Steps db (t.tableSchema, t.tableName) T3
          [.addDefault (toks .sqlserver (normalizeColumnDefault .sqlserver b.columnDefault)) b.columnName]
          { T with col := put T.col b.columnName (some ({ typedCol e pk a b with default := some (toks .sqlserver (normalizeColumnDefault .sqlserver b.columnDefault)) } : Col)) } := by
        refine ⟨⟨_, hc3, rfl, ?_, ?_⟩, ?_⟩
        · show (typedCol e pk a b).identity = none
          rw [k2]
          have : a.columnIdentity = [] := by
            by_cases h1 : a.columnIdentity = []
            · exact h1
            · exact absurd (h.identities h1).2.2.2 hn
          simp [colOf, this]
        · show (typedCol e pk a b).generated = none
          rw [k3, hgen]
        · show eff T3 (.addDefault _ _) = _
          simp only [eff, hc3, Option.map_some]
          subst hT3
          dsimp only
          rw [put_put]
      have := runs_steps (N := N) (nm := fullName e.cur t.tableSchema t.tableName) (by rw [hkey]; exact s)
      rw [hkey] at this
      exact this

end

end MsSpec
