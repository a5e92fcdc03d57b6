import Verif.Lemmas.PgColumns
import Verif.Lemmas.PgEngine
import Verif.Props.PgPlan

/-!
# Changes of columns on Postgres (C41)
-/

namespace PgSpec
open SqlSpec Sqddl DdlText PgText EngineSpec Sqddl.Postgres
open PgText (Act Stmt)

section
variable (e : Env) (a b : Column)

/-- The column after the change of type and collation. -/
def afterType (c : Col) : Col :=
  if normType .postgres a.columnType ≠ normType .postgres b.columnType then
    { c with
      type := (toks .postgres b.columnType).map foldTok
      collation := if b.collationName ≠ [] ∧ b.collationName ≠ e.coll then
        some (.quoted b.collationName) else none }
  else if collationOr e.coll a.collationName ≠ collationOr e.coll b.collationName then
    { c with
      type := (toks .postgres b.columnType).map foldTok
      collation := some (.quoted b.collationName) }
  else c

/-- The column after the change of the default. -/
def afterDefault (c : Col) : Col :=
  if normalizeColumnDefault .postgres a.columnDefault ≠ [] ∧
      normalizeColumnDefault .postgres b.columnDefault = [] then { c with default := none }
  else if (normalizeColumnDefault .postgres a.columnDefault = [] ∧
        normalizeColumnDefault .postgres b.columnDefault ≠ []) ∨
      (isLiteral e.isFloat (normalizeColumnDefault .postgres a.columnDefault) = true ∧
        isLiteral e.isFloat (normalizeColumnDefault .postgres b.columnDefault) = true ∧
        normalizeColumnDefault .postgres a.columnDefault ≠
          normalizeColumnDefault .postgres b.columnDefault) then
    { c with default := some (toks .postgres (normalizeColumnDefault .postgres b.columnDefault)) }
  else c

/-- NOT NULL is set by way of a CHECK. -/
def byCheck : Bool := !a.isNotNull && b.isNotNull && !lowerThan e.version [12]

/-- The column after the change of NOT NULL, before the CHECK is validated. -/
def afterNotNull (c : Col) : Col :=
  if a.isNotNull && !b.isNotNull then { c with notNull := false }
  else if !a.isNotNull && b.isNotNull && lowerThan e.version [12] then { c with notNull := true }
  else c

/-- The column after the change of the identity. -/
def afterIdentity (c : Col) : Col :=
  if a.columnIdentity ≠ [] ∧ b.columnIdentity = [] then { c with identity := none }
  else if a.columnIdentity = [] ∧ b.columnIdentity ≠ [] then
    { c with identity := some (toks .postgres b.columnIdentity) }
  else c

/-- The column at the end of the first file. -/
def midCol : Col :=
  afterIdentity a b (afterNotNull e a b (afterDefault e a b
    (afterType e a b (colOf .postgres e.coll false a))))

/-- The column after all changes. -/
def endCol : Col :=
  if byCheck e a b then { midCol e a b with notNull := true } else midCol e a b

/-- The constraints at the end of the first file. -/
def midCon (f : Str → Option Con) : Str → Option Con :=
  if byCheck e a b then put f (checkName b) (some (notNullCon (checkName b) b.columnName)) else f

end

section
variable {e : Env} {a b : Column} {db : Db} {k : Key}

theorem colOf_identity (coll : Str) : (colOf .postgres coll false a).identity =
    if a.columnIdentity = [] then none else some (toks .postgres a.columnIdentity) := by
  simp only [colOf]
  by_cases h : a.columnIdentity = [] <;> simp [h]

theorem steps_type (h : Alterable e.coll (lowerThan e.version [12]) a b) {t : Tbl} {c : Col}
    (hc : t.col b.columnName = some c)
    (hg : typeActs e a b ≠ [] → ∀ m d, t.col m = some d → generatedFrom b.columnName d = false) :
    Steps db k t (typeActs e a b)
      { t with col := put t.col b.columnName (some (afterType e a b c)) } := by
  unfold typeActs afterType at *
  split
  · rename_i h1
    rw [if_pos h1] at hg
    refine step_col (by rfl) hc ?_ (fun _ _ _ => hg (by simp)) (fun h => by cases h)
    show (if _ then none else _) = _
    rw [if_neg]
    split
    · rename_i h2
      intro h3
      injection h3 with h3
      injection h3 with h3
      exact h2.1 h3
    · intro h3; cases h3
  · rename_i h1
    rw [if_neg h1] at hg
    split
    · rename_i h2
      rw [if_pos h2] at hg
      refine step_col (by rfl) hc ?_ (fun _ _ _ => hg (by simp)) (fun h => by cases h)
      show (if _ then none else _) = _
      rw [if_neg]
      intro h3
      injection h3 with h3
      injection h3 with h3
      apply h2
      rw [h3]
      rcases h.collation h3 with h4 | h4 <;> rw [h4] <;> simp [collationOr]
    · show t = _
      rw [put_eq hc]

theorem steps_default (h : Alterable e.coll (lowerThan e.version [12]) a b) {t : Tbl} {c : Col}
    (hc : t.col b.columnName = some c)
    (hi : c.identity = (colOf .postgres e.coll false a).identity)
    (hg : c.generated = (colOf .postgres e.coll false a).generated) :
    Steps db k t (defaultActs e a b)
      { t with col := put t.col b.columnName (some (afterDefault e a b c)) } := by
  have key : ∀ act, (a.columnDefault ≠ [] ∨ b.columnDefault ≠ []) →
      (act = .dropDefault b.columnName ∨ ∃ x, act = .setDefault b.columnName x) →
      ∃ c', colAct c act = some c' := by
    intro act h0 ha
    have h1 : a.columnIdentity = [] := by
      by_cases h1 : a.columnIdentity = []
      · exact h1
      · have h2 := (h.oldIdentity h1).2
        by_cases h3 : b.columnIdentity = []
        · have h4 := (h.lost h1 h3).2
          rcases h0 with h0 | h0
          · exact absurd h2 h0
          · exact absurd h4 h0
        · have h4 := (h.newIdentity h3).2
          rcases h0 with h0 | h0
          · exact absurd h2 h0
          · exact absurd h4 h0
    have h2 : a.generatedExpr = [] := by
      by_cases h2 : a.generatedExpr = []
      · exact h2
      · have h3 := h.computed h2
        rcases h0 with h0 | h0
        · exact absurd h3.1 h0
        · exact absurd h3.2.1 h0
    have h3 : c.identity = none := by rw [hi, colOf_identity, if_pos h1]
    have h4 : c.generated = none := by rw [hg]; simp [colOf, h2]
    rcases ha with rfl | ⟨x, rfl⟩
    · exact ⟨_, by simp only [colAct, h3, h4]; rfl⟩
    · exact ⟨_, by simp only [colAct, h3, h4]; rfl⟩
  have na := castOk_nil h.casts.1
  have nb := castOk_nil h.casts.2
  have upd : ∀ act c', colAct c act = some c' → act = .dropDefault b.columnName →
      c' = { c with default := none } := by
    rintro _ c' h1 rfl
    simp only [colAct] at h1
    split at h1
    · cases h1
    · injection h1 with h1; exact h1.symm
  have upd' : ∀ act c' x, colAct c act = some c' → act = .setDefault b.columnName x →
      c' = { c with default := some x } := by
    rintro _ c' x h1 rfl
    simp only [colAct] at h1
    split at h1
    · cases h1
    · injection h1 with h1; exact h1.symm
  unfold defaultActs afterDefault
  simp only
  split
  · rename_i h1
    obtain ⟨c', hc'⟩ := key (.dropDefault b.columnName) (Or.inl fun h2 => h1.1 (na.2 h2)) (Or.inl rfl)
    have := upd _ c' hc' rfl
    subst this
    exact step_col (by rfl) hc hc' (fun _ _ h => by cases h) (fun h => by cases h)
  · split
    · rename_i h0 h1
      obtain ⟨c', hc'⟩ := key (.setDefault b.columnName
        (toks .postgres (normalizeColumnDefault .postgres b.columnDefault))) (by
          rcases h1 with h1 | h1
          · exact Or.inr fun h2 => h1.2 (nb.2 h2)
          · by_cases h2 : a.columnDefault = []
            · right
              intro h3
              rw [na.2 h2, nb.2 h3] at h1
              exact h1.2.2 rfl
            · exact Or.inl h2) (Or.inr ⟨_, rfl⟩)
      have := upd' _ c' _ hc' rfl
      subst this
      exact step_col (by rfl) hc hc' (fun _ _ h => by cases h) (fun h => by cases h)
    · show t = _
      rw [put_eq hc]

theorem steps_notNull (h : Alterable e.coll (lowerThan e.version [12]) a b) {t : Tbl} {c : Col}
    (hc : t.col b.columnName = some c)
    (hi : c.identity = (colOf .postgres e.coll false a).identity)
    (hp : a.isNotNull = true → b.isNotNull = false →
      ∀ m d cs, t.con m = some d → d.kind = .primary cs → b.columnName ∉ cs)
    (hn : byCheck e a b = true → t.con (checkName b) = none) :
    Steps db k t (notNullActs e a b)
      { t with
        col := put t.col b.columnName (some (afterNotNull e a b c))
        con := midCon e a b t.con } := by
  unfold notNullActs afterNotNull midCon byCheck at *
  cases ha : a.isNotNull <;> cases hb : b.isNotNull <;> cases hv : lowerThan e.version [12] <;>
    simp only [ha, hb, hv, Bool.not_true, Bool.not_false, Bool.and_true, Bool.and_false,
      Bool.false_eq_true, if_true, if_false] at hp hn ⊢
  all_goals try (show t = _; rw [put_eq hc])
  · -- ADD CONSTRAINT … CHECK … NOT VALID
    refine ⟨?_, ?_⟩
    · exact {
        name := ⟨checkName b, rfl, hn trivial, by intro h; cases h⟩
        cols := by intro x hx; cases hx
        primary := by intro cs h; cases h
        foreign := by intro cs ref h; cases h
        deferred := by intro h; cases h }
    · show Tbl.mk _ _ _ = Tbl.mk _ _ _
      rw [put_eq hc]
      rfl
  · exact step_col (by rfl) hc rfl (fun _ _ h => by cases h) (fun h => by cases h)
  all_goals
    refine step_col (by rfl) hc ?_ (fun _ _ h => by cases h) (fun _ => hp trivial trivial)
    have h1 : a.columnIdentity = [] := by
      by_cases h1 : a.columnIdentity = []
      · exact h1
      · by_cases h3 : b.columnIdentity = []
        · have h4 := (h.lost h1 h3).1
          rw [hb] at h4; cases h4
        · have h4 := (h.newIdentity h3).1
          rw [hb] at h4; cases h4
    have h3 : c.identity = none := by rw [hi, colOf_identity, if_pos h1]
    simp only [colAct, h3]
    rfl

theorem steps_identity (h : Alterable e.coll (lowerThan e.version [12]) a b) {t : Tbl} {c : Col}
    (hc : t.col b.columnName = some c)
    (hi : c.identity = (colOf .postgres e.coll false a).identity)
    (hg : c.generated = (colOf .postgres e.coll false a).generated)
    (hd : c.default = (afterDefault e a b (colOf .postgres e.coll false a)).default)
    (hn : c.notNull = (afterNotNull e a b (colOf .postgres e.coll false a)).notNull) :
    Steps db k t (identityActs a b)
      { t with col := put t.col b.columnName (some (afterIdentity a b c)) } := by
  unfold identityActs afterIdentity
  split
  · rename_i h1
    refine step_col (by rfl) hc ?_ (fun _ _ h => by cases h) (fun h => by cases h)
    have h3 : c.identity.isSome = true := by rw [hi, colOf_identity, if_neg h1.1]; rfl
    simp only [colAct, h3]
    rfl
  · split
    · rename_i h1
      refine step_col (by rfl) hc ?_ (fun _ _ h => by cases h) (fun h => by cases h)
      have h2 := h.newIdentity h1.2
      have h3 : c.identity = none := by rw [hi, colOf_identity, if_pos h1.1]
      have h4 : c.generated = none := by
        have : a.generatedExpr = [] := by
          by_cases h5 : a.generatedExpr = []
          · exact h5
          · exact absurd (h.computed h5).2.2.2 h1.2
        rw [hg]; simp [colOf, this]
      have h5 : c.default = none := by
        rw [hd]
        unfold afterDefault
        by_cases h6 : a.columnDefault = []
        · have h7 : normalizeColumnDefault .postgres [] = [] := by decide
          simp [h2.2, h6, h7, colOf]
        · rw [if_pos ⟨fun h7 => h6 ((castOk_nil h.casts.1).1 h7), by rw [h2.2]; decide⟩]
      have h6 : c.notNull = true := by
        rw [hn]
        unfold afterNotNull
        rw [h2.1]
        rcases h.gained h1.1 h1.2 with h7 | h7
        · rw [h7]
          simp [colOf, h7, computed]
        · rw [h7]
          cases h8 : a.isNotNull <;> simp [colOf, h8, computed]
      simp only [colAct, h3, h4, h5, h6]
      rfl
    · show t = _
      rw [put_eq hc]

/-! ### The attributes that a change leaves alone -/

theorem type_same (c : Col) : (afterType e a b c).identity = c.identity ∧
    (afterType e a b c).generated = c.generated ∧ (afterType e a b c).default = c.default ∧
    (afterType e a b c).notNull = c.notNull ∧ (afterType e a b c).name = c.name := by
  unfold afterType
  split
  · simp
  · split <;> simp

theorem default_same (c : Col) : (afterDefault e a b c).identity = c.identity ∧
    (afterDefault e a b c).generated = c.generated ∧ (afterDefault e a b c).type = c.type ∧
    (afterDefault e a b c).notNull = c.notNull ∧ (afterDefault e a b c).collation = c.collation ∧
    (afterDefault e a b c).name = c.name := by
  unfold afterDefault
  split
  · simp
  · split <;> simp

theorem notNull_same (c : Col) : (afterNotNull e a b c).identity = c.identity ∧
    (afterNotNull e a b c).generated = c.generated ∧ (afterNotNull e a b c).type = c.type ∧
    (afterNotNull e a b c).default = c.default ∧ (afterNotNull e a b c).collation = c.collation ∧
    (afterNotNull e a b c).name = c.name := by
  unfold afterNotNull
  split
  · simp
  · split <;> simp

theorem identity_same (c : Col) : (afterIdentity a b c).notNull = c.notNull ∧
    (afterIdentity a b c).generated = c.generated ∧ (afterIdentity a b c).type = c.type ∧
    (afterIdentity a b c).default = c.default ∧ (afterIdentity a b c).collation = c.collation ∧
    (afterIdentity a b c).name = c.name := by
  unfold afterIdentity
  split
  · simp
  · split <;> simp

theorem default_congr {c d : Col} (h : c.default = d.default) :
    (afterDefault e a b c).default = (afterDefault e a b d).default := by
  unfold afterDefault
  split
  · rfl
  · split
    · rfl
    · exact h

theorem notNull_congr {c d : Col} (h : c.notNull = d.notNull) :
    (afterNotNull e a b c).notNull = (afterNotNull e a b d).notNull := by
  unfold afterNotNull
  split
  · rfl
  · split
    · rfl
    · exact h

theorem midCol_generated : (midCol e a b).generated = (colOf .postgres e.coll false a).generated := by
  unfold midCol
  rw [(identity_same _).2.1, (notNull_same _).2.1, (default_same _).2.1, (type_same _).2.1]

/-- The changes of one column. -/
theorem steps_column (h : Alterable e.coll (lowerThan e.version [12]) a b) {t : Tbl}
    (hc : t.col b.columnName = some (colOf .postgres e.coll false a))
    (hg : typeActs e a b ≠ [] → ∀ m d, t.col m = some d → generatedFrom b.columnName d = false)
    (hp : a.isNotNull = true → b.isNotNull = false →
      ∀ m d cs, t.con m = some d → d.kind = .primary cs → b.columnName ∉ cs)
    (hn : byCheck e a b = true → t.con (checkName b) = none) :
    Steps db k t (columnActs e (a, b))
      { t with
        col := put t.col b.columnName (some (midCol e a b))
        con := midCon e a b t.con } := by
  unfold columnActs
  have s1 := steps_type (db := db) (k := k) h hc hg
  have s2 := steps_default (db := db) (k := k) h (t := { t with
      col := put t.col b.columnName (some (afterType e a b (colOf .postgres e.coll false a))) })
    (put_self _ _ _) (type_same _).1 (type_same _).2.1
  have s3 := steps_notNull (db := db) (k := k) h (t := { t with
      col := put t.col b.columnName (some (afterDefault e a b
        (afterType e a b (colOf .postgres e.coll false a)))) })
    (put_self _ _ _) ((default_same _).1.trans (type_same _).1) hp hn
  have s4 := steps_identity (db := db) (k := k) h (t := { t with
      col := put t.col b.columnName (some (afterNotNull e a b (afterDefault e a b
        (afterType e a b (colOf .postgres e.coll false a)))))
      con := midCon e a b t.con })
    (put_self _ _ _) ((notNull_same _).1.trans ((default_same _).1.trans (type_same _).1))
    ((notNull_same _).2.1.trans ((default_same _).2.1.trans (type_same _).2.1))
    ((notNull_same _).2.2.2.1.trans (default_congr (type_same _).2.2.1))
    (notNull_congr ((default_same _).2.2.2.1.trans (type_same _).2.2.2.1))
  simp only [put_put] at s2 s3 s4
  exact ((s1.append s2).append s3).append s4

/-! ### The result -/

theorem type_cases : (∃ c' co, ∀ c, afterType e a b c = { c with type := c', collation := co }) ∨
    ∀ c, afterType e a b c = c := by
  unfold afterType
  split
  · exact Or.inl ⟨_, _, fun _ => rfl⟩
  · split
    · exact Or.inl ⟨_, _, fun _ => rfl⟩
    · exact Or.inr fun _ => rfl

theorem endCol_reached (h : Alterable e.coll (lowerThan e.version [12]) a b) :
    ColumnReached e.coll a b (endCol e a b) := by
  have hc : ∀ c : Column, computed .postgres c = false := fun _ => rfl
  -- what the last step adds does not touch the other attributes
  have e1 : (endCol e a b).type = (afterType e a b (colOf .postgres e.coll false a)).type := by
    unfold endCol
    split <;>
      simp only [midCol, (identity_same _).2.2.1, (notNull_same _).2.2.1, (default_same _).2.2.1]
  have e2 : (endCol e a b).collation = (afterType e a b (colOf .postgres e.coll false a)).collation := by
    unfold endCol
    split <;>
      simp only [midCol, (identity_same _).2.2.2.2.1, (notNull_same _).2.2.2.2.1,
        (default_same _).2.2.2.2.1]
  have e3 : (endCol e a b).name = a.columnName := by
    unfold endCol
    split <;>
      simp only [midCol, (identity_same _).2.2.2.2.2, (notNull_same _).2.2.2.2.2,
        (default_same _).2.2.2.2.2, (type_same _).2.2.2.2, colOf]
  have e4 : (endCol e a b).generated = (colOf .postgres e.coll false a).generated := by
    unfold endCol
    split <;> simp only [midCol_generated]
  have e5 : (endCol e a b).default =
      (afterDefault e a b (colOf .postgres e.coll false a)).default := by
    have := default_congr (e := e) (a := a) (b := b)
      (type_same (e := e) (a := a) (b := b) (colOf .postgres e.coll false a)).2.2.1
    unfold endCol
    split <;> simp only [midCol, (identity_same _).2.2.2.1, (notNull_same _).2.2.2.1, this]
  have e6 : (endCol e a b).identity =
      (afterIdentity a b (colOf .postgres e.coll false a)).identity := by
    have : ∀ c : Col, c.identity = (colOf .postgres e.coll false a).identity →
        (afterIdentity a b c).identity =
          (afterIdentity a b (colOf .postgres e.coll false a)).identity := by
      intro c hc
      unfold afterIdentity
      split
      · rfl
      · split
        · rfl
        · exact hc
    unfold endCol
    split <;> simp only [midCol] <;> apply this <;>
      rw [(notNull_same _).1, (default_same _).1, (type_same _).1]
  have e7 : (endCol e a b).notNull = (if byCheck e a b then true else
      (afterNotNull e a b (colOf .postgres e.coll false a)).notNull) := by
    unfold endCol
    split
    · rfl
    · simp only [midCol, (identity_same _).1]
      exact notNull_congr ((default_same _).2.2.2.1.trans (type_same _).2.2.2.1)
  have dom : ∀ x y, a.domainName = [] ∧ b.domainName = [] →
      (colOf .postgres x false b).type = (colOf .postgres y false b).type := fun _ _ _ => rfl
  constructor
  · rw [e3, h.name]
  · rw [e1]
    unfold afterType
    split
    · rename_i h1
      left
      rcases h.domain with h2 | h2
      · simp [colOf, h2.2, hc]
      · rw [h2.2.1] at h1; exact absurd rfl h1
    · rename_i h1
      split
      · rename_i h1
        left
        rcases h.domain with h2 | h2
        · simp [colOf, h2.2, hc]
        · rw [h2.2.2] at h1; exact absurd rfl h1
      · right
        refine ⟨rfl, sameType ?_⟩
        by_cases h2 : normType .postgres a.columnType = normType .postgres b.columnType
        · exact h2
        · exact absurd h2 h1
  · rw [e7]
    unfold byCheck afterNotNull
    cases h1 : a.isNotNull <;> cases h2 : b.isNotNull <;> cases h3 : lowerThan e.version [12] <;>
      simp [colOf, h1, hc]
  · rw [e6]
    unfold afterIdentity
    split
    · rename_i h1; simp [h1.2]
    · split
      · rename_i h1; simp [h1.2]
      · rename_i h1 h2
        rw [colOf_identity]
        by_cases h3 : a.columnIdentity = [] <;> by_cases h4 : b.columnIdentity = []
        · simp [h3, h4]
        · exact absurd ⟨h3, h4⟩ h2
        · exact absurd ⟨h3, h4⟩ h1
        · simp [h3, h4]
  · rw [e5]
    have na := castOk_nil h.casts.1
    have nb := castOk_nil h.casts.2
    unfold afterDefault
    split
    · rename_i h1
      exact nb.1 h1.2
    · split
      · exact ⟨_, rfl, default_set h.casts.2⟩
      · rename_i h1 h2
        have same : DefaultEq a.columnDefault b.columnDefault := by
          obtain ⟨x, hx, _⟩ := castOk_uncast h.casts.1
          obtain ⟨y, hy, _⟩ := castOk_uncast h.casts.2
          apply default_eq hx hy
          by_cases h3 : normalizeColumnDefault .postgres a.columnDefault =
            normalizeColumnDefault .postgres b.columnDefault
          · exact h3
          exfalso
          by_cases h4 : normalizeColumnDefault .postgres a.columnDefault = [] <;>
            by_cases h5 : normalizeColumnDefault .postgres b.columnDefault = []
          · exact h3 (h4.trans h5.symm)
          · exact h2 (Or.inl ⟨h4, h5⟩)
          · exact h1 ⟨h4, h5⟩
          · rcases h.default with h6 | h6 | h6 | ⟨x', y', hx', hy', cx, cy⟩
            · exact h4 (na.2 h6)
            · exact h5 (nb.2 h6)
            · rw [h6] at h3; exact h3 rfl
            · exact h2 (Or.inr ⟨isLiteral_constant _ hx' cx, isLiteral_constant _ hy' cy, h3⟩)
        by_cases h3 : a.columnDefault = []
        · by_cases h4 : b.columnDefault = []
          · simp [colOf, h3, h4, DefaultIs]
          · exact absurd (Or.inl ⟨na.2 h3, fun h5 => h4 (nb.1 h5)⟩) h2
        · have : (colOf .postgres e.coll false a).default = some (toks .postgres a.columnDefault) := by
            simp [colOf, h3]
          rw [this]
          exact ⟨_, rfl, same⟩
  · rw [e2]
    unfold afterType
    split
    · by_cases h1 : b.collationName = []
      · simp [h1]
      · by_cases h2 : b.collationName = e.coll
        · simp [h2]
        · simp [h1, h2]
    · split
      · rename_i h1
        by_cases h2 : b.collationName = []
        · exfalso
          apply h1
          rw [h2]
          rcases h.collation h2 with h4 | h4 <;> rw [h4] <;> simp [collationOr]
        · simp [h2]
      · rename_i h1
        have h2 : collationOr e.coll a.collationName = collationOr e.coll b.collationName := by
          by_cases h3 : collationOr e.coll a.collationName = collationOr e.coll b.collationName
          · exact h3
          · exact absurd h3 h1
        have h3 : ∀ c : Str, (if c = [] then e.coll else c) = collationOr e.coll c := by
          intro c
          unfold collationOr
          by_cases h4 : c = [] <;> simp [h4]
        rw [h3, ← h2, ← h3]
        by_cases h4 : a.collationName = []
        · simp [colOf, h4]
        · by_cases h5 : a.collationName = e.coll
          · simp [colOf, h5]
          · simp [colOf, h4, h5]
  · rw [e4]
    simp only [colOf, h.generated.1, h.generated.2]

/-- A column that is not changed. -/
theorem unchanged_reached (h : Alterable e.coll (lowerThan e.version [12]) a b)
    (hd : columnsAreDifferent .postgres e.coll a b = false)
    (hp : b.isPrimaryKey = true → a.isNotNull = b.isNotNull) :
    ColumnReached e.coll a b (colOf .postgres e.coll false a) := by
  have h0 := endCol_reached h
  unfold columnsAreDifferent at hd
  simp only [Bool.or_eq_false_iff, Bool.and_eq_false_iff, decide_eq_false_iff_not, Decidable.not_not,
    bne_eq_false_iff_eq, Bool.not_eq_false'] at hd
  obtain ⟨⟨⟨⟨h1, h2⟩, h3⟩, h4⟩, h5⟩ := hd
  have h3 : a.isNotNull = b.isNotNull := h3.elim id hp
  have e1 : endCol e a b = colOf .postgres e.coll false a := by
    have t1 : ∀ c, afterType e a b c = c := by
      intro c
      unfold afterType
      rw [if_neg (fun h => h h1), if_neg (fun h => h h5)]
    have t2 : ∀ c, afterDefault e a b c = c := by
      intro c
      unfold afterDefault
      rw [h2, if_neg (fun h => h.1 h.2), if_neg]
      rintro (h | h)
      · exact h.2 h.1
      · exact h.2.2 rfl
    have t3 : ∀ c, afterNotNull e a b c = c := by
      intro c
      unfold afterNotNull
      rw [h3]
      cases b.isNotNull <;> simp
    have t4 : ∀ c, afterIdentity a b c = c := by
      intro c
      unfold afterIdentity
      rw [if_neg (fun h => h4 (Or.inl h)), if_neg (fun h => h4 (Or.inr h))]
    have t5 : byCheck e a b = false := by
      unfold byCheck
      rw [h3]
      cases b.isNotNull <;> simp
    unfold endCol midCol
    rw [t5, t1, t2, t3, t4]
    rfl
  rwa [e1] at h0

end

/-! ## All columns of a table -/

section
variable {e : Env} {db : Db} {k : Key}

/-- The columns at the end of the first file. -/
def midCols (e : Env) (ps : List (Column × Column)) (f : Str → Option Col) (n : Str) : Option Col :=
  match ps.find? fun p => p.2.columnName == n with
  | some p => some (midCol e p.1 p.2)
  | none => f n

/-- The constraints at the end of the first file. -/
def midCons (e : Env) (ps : List (Column × Column)) (f : Str → Option Con) (n : Str) : Option Con :=
  match ps.find? fun p => byCheck e p.1 p.2 && checkName p.2 == n with
  | some p => some (notNullCon (checkName p.2) p.2.columnName)
  | none => f n

theorem checkName_inj {a b : Column} (ht : a.tableName = b.tableName) (h : checkName a = checkName b) :
    a.columnName = b.columnName := by
  unfold checkName at h
  rw [ht] at h
  simp only [List.append_assoc, List.append_cancel_left_eq, List.append_cancel_right_eq] at h
  exact h

theorem midCols_cons (p : Column × Column) (r : List (Column × Column)) (f : Str → Option Col)
    (h : p.2.columnName ∉ r.map fun q => q.2.columnName) :
    midCols e r (put f p.2.columnName (some (midCol e p.1 p.2))) = midCols e (p :: r) f := by
  funext n
  unfold midCols
  rw [List.find?_cons]
  by_cases hn : p.2.columnName = n
  · subst hn
    rw [(List.find?_eq_none (p := fun q : Column × Column => q.2.columnName == p.2.columnName)).2]
    · simp [put_self]
    · intro q hq h1
      exact h (List.mem_map.2 ⟨q, hq, eq_of_beq h1⟩)
  · rw [show (p.2.columnName == n) = false from by simpa using hn]
    simp only
    rw [put_ne _ _ (fun h => hn h.symm)]

theorem midCons_cons (p : Column × Column) (r : List (Column × Column)) (f : Str → Option Con)
    (ht : ∀ q ∈ r, q.2.tableName = p.2.tableName)
    (h : p.2.columnName ∉ r.map fun q => q.2.columnName) :
    midCons e r (midCon e p.1 p.2 f) = midCons e (p :: r) f := by
  funext n
  unfold midCons midCon
  rw [List.find?_cons]
  cases hb : byCheck e p.1 p.2
  · simp
  · by_cases hn : checkName p.2 = n
    · subst hn
      rw [(List.find?_eq_none
        (p := fun q : Column × Column => byCheck e q.1 q.2 && checkName q.2 == checkName p.2)).2]
      · simp [put_self]
      · intro q hq h1
        rw [Bool.and_eq_true] at h1
        exact h (List.mem_map.2 ⟨q, hq, checkName_inj (ht q hq) (eq_of_beq h1.2)⟩)
    · rw [show (checkName p.2 == n) = false from by simpa using hn]
      simp only [Bool.true_and, if_true]
      rw [put_ne _ _ (fun h => hn h.symm)]

theorem typeActs_nil {a b : Column} (h : typeActs e a b ≠ []) :
    a.columnType ≠ b.columnType ∨ a.collationName ≠ b.collationName := by
  by_cases h1 : a.columnType = b.columnType
  · by_cases h2 : a.collationName = b.collationName
    · exfalso
      apply h
      unfold typeActs
      rw [h1, h2]
      simp
    · exact Or.inr h2
  · exact Or.inl h1

/-- The changes of all columns, up to the end of the first file. -/
theorem steps_columns {n : Str} : ∀ (ps : List (Column × Column)) (t : Tbl),
    Alterations e.coll (lowerThan e.version [12]) n t ps →
    Steps db k t (ps.flatMap (columnActs e))
      { t with col := midCols e ps t.col, con := midCons e ps t.con } := by
  intro ps
  induction ps with
  | nil =>
    intro t _
    show t = _
    rfl
  | cons p r ih =>
    intro t h
    have hp : p ∈ p :: r := List.mem_cons_self
    have hnd := List.nodup_cons.1 h.once
    have htn : ∀ q ∈ r, q.2.tableName = p.2.tableName := fun q hq =>
      (h.table q (List.mem_cons_of_mem _ hq)).trans (h.table p hp).symm
    have free : ∀ q ∈ p :: r, byCheck e q.1 q.2 = true → t.con (checkName q.2) = none := by
      intro q hq hb
      unfold byCheck at hb
      simp only [Bool.and_eq_true, Bool.not_eq_true'] at hb
      have := h.free q hq hb.1.1 hb.1.2
      rwa [← h.table q hq] at this
    have s1 := steps_column (db := db) (k := k) (h.each p hp) (h.cols p hp)
      (fun h1 => h.generated p hp (typeActs_nil h1)) (h.primary p hp) (free p hp)
    have h2 : Alterations e.coll (lowerThan e.version [12]) n
        { t with
          col := put t.col p.2.columnName (some (midCol e p.1 p.2))
          con := midCon e p.1 p.2 t.con } r := by
      constructor
      · intro q hq
        have : q.2.columnName ≠ p.2.columnName := fun h3 =>
          hnd.1 (List.mem_map.2 ⟨q, hq, h3⟩)
        show put _ _ _ _ = _
        rw [put_ne _ _ this]
        exact h.cols q (List.mem_cons_of_mem _ hq)
      · exact fun q hq => h.each q (List.mem_cons_of_mem _ hq)
      · exact hnd.2
      · exact fun q hq => h.table q (List.mem_cons_of_mem _ hq)
      · intro q hq h3 m d hd
        have h4 := h.generated q (List.mem_cons_of_mem _ hq) h3
        by_cases hm : m = p.2.columnName
        · subst hm
          simp only [put_self] at hd
          injection hd with hd
          have h5 := h4 _ _ (h.cols p hp)
          rw [← hd]
          unfold generatedFrom at h5 ⊢
          rwa [midCol_generated]
        · simp only [put_ne _ _ hm] at hd
          exact h4 m d hd
      · intro q hq h3 h4 m d cs hd hk
        have h5 := h.primary q (List.mem_cons_of_mem _ hq) h3 h4
        simp only [midCon] at hd
        split at hd
        · by_cases hm : m = checkName p.2
          · subst hm
            rw [put_self] at hd
            injection hd with hd
            rw [← hd] at hk
            cases hk
          · rw [put_ne _ _ hm] at hd
            exact h5 m d cs hd hk
        · exact h5 m d cs hd hk
      · intro q hq h3 h4
        have h5 := h.free q (List.mem_cons_of_mem _ hq) h3 h4
        simp only [midCon]
        split
        · rw [put_ne]
          · exact h5
          · intro h6
            have h7 : checkName q.2 = checkName p.2 := by
              rw [← h6]
              unfold checkName
              rw [h.table q (List.mem_cons_of_mem _ hq)]
            exact hnd.1 (List.mem_map.2 ⟨q, hq, checkName_inj (htn q hq) h7⟩)
        · exact h5
    have s2 := ih _ h2
    rw [midCols_cons p r _ hnd.1, midCons_cons p r _ htn hnd.1] at s2
    rw [List.flatMap_cons]
    exact s1.append s2

/-- The columns after the constraints are validated. -/
def validCols (vs : List Column) (f : Str → Option Col) (n : Str) : Option Col :=
  if vs.any (fun c => c.columnName == n) then (f n).map fun c => { c with notNull := true } else f n

/-- The constraints before they are validated. -/
def validCons (vs : List Column) (f : Str → Option Con) (n : Str) : Option Con :=
  match vs.find? fun c => checkName c == n with
  | some c => some (notNullCon (checkName c) c.columnName)
  | none => f n

/-- The columns are made NOT NULL by way of the constraints. -/
theorem steps_validate {n : Str} : ∀ (vs : List Column) (f : Str → Option Con) (t : Tbl),
    (vs.map fun c => c.columnName).Nodup → (∀ c ∈ vs, c.tableName = n) →
    (∀ c ∈ vs, (t.col c.columnName).isSome) → (∀ c ∈ vs, f (checkName c) = none) →
    t.con = validCons vs f →
    Steps db k t (vs.flatMap validateActs) { t with col := validCols vs t.col, con := f } := by
  intro vs
  induction vs with
  | nil =>
    intro f t _ _ _ _ hf
    show t = _
    have : validCons [] f = f := rfl
    rw [this] at hf
    rw [← hf]
    rfl
  | cons c r ih =>
    intro f t hnd ht hc hfree hf
    rw [List.map_cons, List.nodup_cons] at hnd
    have hc0 : t.con (checkName c) = some (notNullCon (checkName c) c.columnName) := by
      rw [hf]
      simp [validCons]
    obtain ⟨d, hd⟩ := Option.isSome_iff_exists.1 (hc c List.mem_cons_self)
    have s1 : Steps db k t (validateActs c) { t with
        col := put t.col c.columnName (some { d with notNull := true })
        con := put t.con (checkName c) none } := by
      refine ⟨⟨_, hc0, Or.inr ⟨_, rfl⟩⟩, ⟨d, _, hd, rfl⟩, ⟨Or.inr ?_, ?_⟩, ?_⟩
      · simp [eff, put_self, hc0]
      · intro x cols hx hk
        simp only [eff, put_self, hc0, Option.map_some] at hx
        injection hx with hx
        rw [← hx] at hk
        rcases hk with hk | hk <;> cases hk
      · simp only [eff, put_put, hd]
        rfl
    have hne : ∀ x ∈ r, checkName x ≠ checkName c := by
      intro x hx h1
      have := checkName_inj ((ht x (List.mem_cons_of_mem _ hx)).trans
        (ht c List.mem_cons_self).symm) h1
      exact hnd.1 (this ▸ List.mem_map_of_mem (f := fun c => c.columnName) hx)
    have s2 := ih f { t with
        col := put t.col c.columnName (some { d with notNull := true })
        con := put t.con (checkName c) none } hnd.2
      (fun x hx => ht x (List.mem_cons_of_mem _ hx)) (by
        intro x hx
        by_cases h1 : x.columnName = c.columnName
        · simp [h1, put_self]
        · simp only [put_ne _ _ h1]
          exact hc x (List.mem_cons_of_mem _ hx))
      (fun x hx => hfree x (List.mem_cons_of_mem _ hx)) (by
        funext m
        show put _ _ _ _ = _
        by_cases hm : m = checkName c
        · subst hm
          rw [put_self]
          unfold validCons
          rw [(List.find?_eq_none (p := fun x : Column => checkName x == checkName c)).2]
          · exact (hfree c List.mem_cons_self).symm
          · intro x hx h1
            exact hne x hx (eq_of_beq h1)
        · rw [put_ne _ _ hm, hf]
          unfold validCons
          rw [List.find?_cons, show (checkName c == m) = false from by
            simpa using fun h => hm h.symm])
    rw [List.flatMap_cons]
    have e1 : validCols r (put t.col c.columnName (some { d with notNull := true })) =
        validCols (c :: r) t.col := by
      funext m
      unfold validCols
      rw [List.any_cons]
      by_cases hm : m = c.columnName
      · subst hm
        simp only [put_self, hd, beq_self_eq_true, Bool.true_or, if_true, Option.map_some]
        split <;> rfl
      · rw [put_ne _ _ hm, show (c.columnName == m) = false from by simpa using fun h => hm h.symm,
          Bool.false_or]
    rw [← e1]
    exact s1.append s2

/-- The columns that are made NOT NULL by way of constraints. -/
def toValidate (e : Env) (ps : List (Column × Column)) : List Column :=
  (ps.filter fun p => byCheck e p.1 p.2).map (·.2)

theorem find_nodup {α : Type} (f : α → Str) {xs : List α} (h : (xs.map f).Nodup) {x : α} (hx : x ∈ xs) :
    xs.find? (fun y => f y == f x) = some x := by
  induction xs with
  | nil => cases hx
  | cons y r ih =>
    rw [List.map_cons, List.nodup_cons] at h
    rw [List.find?_cons]
    rcases List.mem_cons.1 hx with rfl | hx
    · simp
    · rw [show (f y == f x) = false from by
        simpa using fun h1 => h.1 (List.mem_map.2 ⟨x, hx, h1.symm⟩)]
      exact ih h.2 hx

theorem midCols_mem {ps : List (Column × Column)} {f : Str → Option Col} {p : Column × Column}
    (h : (ps.map fun p => p.2.columnName).Nodup) (hp : p ∈ ps) :
    midCols e ps f p.2.columnName = some (midCol e p.1 p.2) := by
  unfold midCols
  rw [find_nodup (fun p : Column × Column => p.2.columnName) h hp]

theorem midCons_eq (ps : List (Column × Column)) (f : Str → Option Con) :
    midCons e ps f = validCons (toValidate e ps) f := by
  funext n
  unfold midCons validCons toValidate
  induction ps with
  | nil => rfl
  | cons p r ih =>
    rw [List.find?_cons, List.filter_cons]
    cases byCheck e p.1 p.2
    · exact ih
    · simp only [Bool.true_and, if_true, List.map_cons, List.find?_cons]
      cases checkName p.2 == n
      · exact ih
      · rfl

/-- The columns after all changes. -/
def endCols (e : Env) (ps : List (Column × Column)) (f : Str → Option Col) (n : Str) : Option Col :=
  match ps.find? fun p => p.2.columnName == n with
  | some p => some (endCol e p.1 p.2)
  | none => f n

theorem endCols_eq {ps : List (Column × Column)} (h : (ps.map fun p => p.2.columnName).Nodup)
    (f : Str → Option Col) : validCols (toValidate e ps) (midCols e ps f) = endCols e ps f := by
  funext n
  unfold endCols
  cases hf : ps.find? fun p => p.2.columnName == n with
  | none =>
    have h1 : ∀ p ∈ ps, p.2.columnName ≠ n := by
      intro p hp
      simpa using List.find?_eq_none.1 hf p hp
    unfold validCols
    rw [if_neg]
    · unfold midCols
      rw [hf]
    · intro h2
      rw [List.any_eq_true] at h2
      obtain ⟨c, hc, h3⟩ := h2
      obtain ⟨p, hp, rfl⟩ := List.mem_map.1 hc
      exact h1 p (List.mem_filter.1 hp).1 (eq_of_beq h3)
  | some p =>
    have hp := List.mem_of_find?_eq_some hf
    have hn : p.2.columnName = n := by simpa using List.find?_some hf
    subst hn
    unfold validCols
    rw [midCols_mem h hp]
    show _ = some (endCol e p.1 p.2)
    unfold endCol
    by_cases hb : byCheck e p.1 p.2 = true
    · rw [if_pos, if_pos hb]
      · rfl
      · rw [List.any_eq_true]
        exact ⟨p.2, List.mem_map.2 ⟨p, List.mem_filter.2 ⟨hp, hb⟩, rfl⟩, by simp⟩
    · rw [if_neg, if_neg hb]
      intro h2
      rw [List.any_eq_true] at h2
      obtain ⟨c, hc, h3⟩ := h2
      obtain ⟨q, hq, rfl⟩ := List.mem_map.1 hc
      obtain ⟨hq1, hq2⟩ := List.mem_filter.1 hq
      have h4 := find_nodup (fun p : Column × Column => p.2.columnName) h hq1
      have h5 := find_nodup (fun p : Column × Column => p.2.columnName) h hp
      rw [eq_of_beq h3, h5] at h4
      injection h4 with h4
      rw [h4] at hb
      exact hb hq2

/-- The changes of all columns, with the constraints validated at the end. -/
theorem steps_all {n : Str} {ps : List (Column × Column)} {t : Tbl}
    (h : Alterations e.coll (lowerThan e.version [12]) n t ps) :
    Steps db k t (ps.flatMap (columnActs e) ++ (toValidate e ps).flatMap validateActs)
      { t with col := endCols e ps t.col } := by
  have s1 := steps_columns (db := db) (k := k) ps t h
  have mem : ∀ c ∈ toValidate e ps, ∃ p ∈ ps, byCheck e p.1 p.2 = true ∧ p.2 = c := by
    intro c hc
    obtain ⟨p, hp, rfl⟩ := List.mem_map.1 hc
    exact ⟨p, (List.mem_filter.1 hp).1, (List.mem_filter.1 hp).2, rfl⟩
  have s2 := steps_validate (db := db) (k := k) (n := n) (toValidate e ps) t.con
    { t with col := midCols e ps t.col, con := midCons e ps t.con } (by
      unfold toValidate
      rw [List.map_map]
      exact (List.Sublist.map _ List.filter_sublist).nodup h.once) (by
      intro c hc
      obtain ⟨p, hp, _, rfl⟩ := mem c hc
      exact h.table p hp) (by
      intro c hc
      obtain ⟨p, hp, _, rfl⟩ := mem c hc
      show (midCols _ _ _ _).isSome = true
      rw [midCols_mem h.once hp]; rfl) (by
      intro c hc
      obtain ⟨p, hp, hb, rfl⟩ := mem c hc
      unfold byCheck at hb
      simp only [Bool.and_eq_true, Bool.not_eq_true'] at hb
      have := h.free p hp hb.1.1 hb.1.2
      rwa [← h.table p hp] at this) (midCons_eq ps t.con)
  simp only [endCols_eq h.once] at s2
  exact s1.append s2

end

/-- The statements change columns, and nothing else. -/
structure OnlyColumns (a : AlterTable) : Prop where
  dropIndexes : a.dropIndexes = []
  dropConstraints : a.dropConstraints = []
  dropColumns : a.dropColumns = []
  addColumns : a.addColumns = []
  alterConstraints : a.alterConstraints = []
  createIndexes : a.createIndexes = []
  addConstraints : a.addConstraints = []

/-- C41, Postgres: the statements that are generated for changed columns of a table, read back from
their files, are accepted, and they give every column the type, the default, the nullability, the
identity and the collation of the destination.  Other columns, the constraints, the indexes and the
other tables are what they were.

Partial: the differences are those of `Alterable` and `Alterations` (see the refutations below for
what goes wrong otherwise), and the table has no other differences.  Whether rows are in the way is
not looked at. -/
theorem pg_alter_columns_partial (e : Env) (de : DiffEnv) (src dest : Table) (db : Db) (t : Tbl)
    (hv : e.version = de.src.versionNums) (only : OnlyColumns (pgAlterTable de src dest))
    (htext : AlterText e (pgAlterTable de src dest))
    (ht : db.table (key (fullName e.cur dest.tableSchema dest.tableName)) = some t)
    (h : Alterations e.coll (lowerThan e.version [12]) dest.tableName t
      (pgAlterTable de src dest).alterColumns) :
    ∃ sts t',
      StepsRead e.cur (alterTableSteps e (pgAlterTable de src dest)) sts ∧
      Runs db sts { db with
        table := put db.table (key (fullName e.cur dest.tableSchema dest.tableName)) (some t') } ∧
      t'.con = t.con ∧ t'.idx = t.idx ∧
      (∀ p ∈ (pgAlterTable de src dest).alterColumns,
        ∃ c, t'.col p.2.columnName = some c ∧ ColumnReached e.coll p.1 p.2 c) ∧
      ∀ m, (∀ p ∈ (pgAlterTable de src dest).alterColumns, p.2.columnName ≠ m) →
        t'.col m = t.col m := by
  refine ⟨_, { t with col := endCols e (pgAlterTable de src dest).alterColumns t.col },
    alterTableSteps_read_back e _ htext, ?_, rfl, rfl, ?_, ?_⟩
  · have s := steps_all (db := db) (k := key (fullName e.cur dest.tableSchema dest.tableName)) h
    have r := runs_steps (fullName e.cur dest.tableSchema dest.tableName) rfl s
    rw [withTable_eq ht] at r
    have e1 : Postgres.alterOf e (pgAlterTable de src dest) =
        ((pgAlterTable de src dest).alterColumns.flatMap (columnActs e) ++
          (toValidate e (pgAlterTable de src dest).alterColumns).flatMap validateActs).map
            (fun a => .alter (fullName e.cur dest.tableSchema dest.tableName) [a]) := by
      have e2 : (pgAlterTable de src dest).validateNotNull =
          toValidate e (pgAlterTable de src dest).alterColumns := by
        unfold toValidate byCheck
        rw [hv]
        rfl
      unfold Postgres.alterOf alterActs
      rw [only.dropIndexes, only.dropConstraints, only.dropColumns, only.addColumns,
        only.alterConstraints, only.createIndexes, only.addConstraints, e2]
      simp only [List.map_nil, List.nil_append, List.flatMap_nil, List.append_nil, List.map_append,
        List.map_flatMap]
      rfl
    rw [e1]
    exact r
  · intro p hp
    refine ⟨endCol e p.1 p.2, ?_, endCol_reached (h.each p hp)⟩
    show endCols _ _ _ _ = _
    unfold endCols
    rw [find_nodup (fun p : Column × Column => p.2.columnName) h.once hp]
  · intro m hm
    show endCols _ _ _ _ = _
    unfold endCols
    rw [List.find?_eq_none.2]
    intro p hp
    simpa using hm p hp

end PgSpec
