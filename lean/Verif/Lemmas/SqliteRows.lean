import Verif.Spec.SqliteRows

/-! Lemmas about the engine of Verif.Spec.SqliteRows. -/

namespace LiteSpec
open Classical
open SqlSpec Sqddl LiteText
open DdlText hiding Stmt readStmt runScript

variable {V : Type} {w : World V} {fk : Bool}

@[simp] theorem put_self (db : Db V) (n : Str) (t : Option (Tbl V)) : db.put n t n = t := by
  simp [Db.put]

theorem put_ne (db : Db V) {n m : Str} (t : Option (Tbl V)) (h : m ≠ n) : db.put n t m = db m := by
  simp [Db.put, h]

theorem put_same (db : Db V) (n : Str) : db.put n (db n) = db := by
  funext m; simp only [Db.put]; split <;> simp_all

theorem put_put (db : Db V) (n : Str) (s t : Option (Tbl V)) : (db.put n s).put n t = db.put n t := by
  funext m; simp only [Db.put]; split <;> rfl

theorem put_comm (db : Db V) {n m : Str} (s t : Option (Tbl V)) (h : n ≠ m) :
    (db.put n s).put m t = (db.put m t).put n s := by
  funext x; simp only [Db.put]; split <;> split <;> simp_all

theorem run_append (db : Db V) (a b : List Stmt) :
    run w fk db (a ++ b) = (run w fk db a).bind fun db => run w fk db b := by
  induction a generalizing db with
  | nil => rfl
  | cons x a ih =>
    simp only [List.cons_append, run]
    cases exec w fk db x with
    | none => rfl
    | some d => simp only [Option.bind_some, ih]

theorem run_cons {db db' : Db V} {st : Stmt} {sts : List Stmt}
    (h : run w fk db (st :: sts) = some db') :
    ∃ d, exec w fk db st = some d ∧ run w fk d sts = some db' := by
  simpa [run, Option.bind_eq_some_iff] using h

theorem run_split {db db' : Db V} {a b : List Stmt} (h : run w fk db (a ++ b) = some db') :
    ∃ d, run w fk db a = some d ∧ run w fk d b = some db' := by
  rw [run_append] at h
  simpa [Option.bind_eq_some_iff] using h

theorem exec_effect {db db' : Db V} {st : Stmt} (h : exec w fk db st = some db') :
    effect w fk db st = some db' := by
  unfold exec at h
  split at h
  · exact h
  · cases h

/-- Statements about indexes and pragmas. -/
def idle : Stmt → Bool
  | .pragma _ _ => true
  | .createIndex _ => true
  | .dropIndex _ => true
  | _ => false

theorem run_idle {db db' : Db V} {sts : List Stmt} (hi : ∀ st ∈ sts, idle st = true)
    (h : run w fk db sts = some db') : db' = db := by
  induction sts generalizing db with
  | nil => cases h; rfl
  | cons st sts ih =>
    obtain ⟨d, h1, h2⟩ := run_cons h
    have := hi st (by simp)
    have h1 := exec_effect h1
    have e : d = db := by
      cases st <;> simp only [idle, Bool.false_eq_true] at this <;>
        simp only [effect, Option.some.injEq] at h1 <;> exact h1.symm
    subst e
    exact ih (fun x hx => hi x (by simp [hx])) h2

/-! ## References -/

/-- The tables of `R` are referenced by no table but themselves. -/
def Inv (R : Str → Prop) (db : Db V) : Prop :=
  ∀ u U f, db u = some U → f ∈ U.fkeys → R (key f.2.table) → u = key f.2.table

/-- The table references no table of `R`. -/
def Free (R : Str → Prop) (t : Tbl V) : Prop := ∀ f ∈ t.fkeys, ¬ R (key f.2.table)

theorem Inv.put {R : Str → Prop} {db : Db V} (h : Inv R db) (n : Str) (t : Tbl V)
    (ht : ∀ f ∈ t.fkeys, R (key f.2.table) → n = key f.2.table) : Inv R (db.put n (some t)) := by
  intro u U f hu hf hr
  by_cases e : u = n
  · subst e
    rw [put_self] at hu
    cases hu
    exact ht f hf hr
  · rw [put_ne _ _ e] at hu
    exact h u U f hu hf hr

theorem Inv.put_free {R : Str → Prop} {db : Db V} (h : Inv R db) (n : Str) (t : Tbl V)
    (ht : Free R t) : Inv R (db.put n (some t)) :=
  h.put n t fun f hf hr => absurd hr (ht f hf)

theorem Inv.remove {R : Str → Prop} {db : Db V} (h : Inv R db) (n : Str) : Inv R (db.put n none) := by
  intro u U f hu hf hr
  by_cases e : u = n
  · subst e; rw [put_self] at hu; cases hu
  · rw [put_ne _ _ e] at hu
    exact h u U f hu hf hr

theorem gone_own {R : Str → Prop} {db : Db V} (h : Inv R db) {t : Str} (ht : R t) {u : Str}
    {r : Row V} (hg : Gone w db t u r) : u = t := by
  induction hg with
  | own _ _ _ _ => rfl
  | cascade u U r cols ref parent hu _ hf _ _ _ ih =>
    rw [ih.symm] at ht
    have := h u U (cols, ref) hu hf ht
    rw [this, ih]

/-- Deleting the rows of a table that no other table references. -/
theorem deleteAll_other {R : Str → Prop} {db : Db V} (h : Inv R db) {t : Str} (ht : R t) {u : Str}
    (hu : u ≠ t) : deleteAll w db t u = db u := by
  unfold deleteAll
  cases e : db u with
  | none => rfl
  | some U =>
    have hl : ∀ rule r cols, ¬ Loses w db t U rule r cols := by
      rintro rule r cols ⟨ref, parent, hf, -, hg, -⟩
      have h1 := gone_own h ht hg
      have h2 := h u U (cols, ref) e hf (by rw [h1]; exact ht)
      exact hu (h2.trans h1)
    have h1 : U.rows.filter (fun r => decide (¬ Gone w db t u r)) = U.rows := by
      rw [List.filter_eq_self]
      intro r _
      rw [decide_eq_true_eq]
      exact fun hg => hu (gone_own h ht hg)
    have h2 : ∀ r, unlink w db t U r = r := by
      intro r
      funext n
      unfold unlink
      rw [if_neg (by rintro ⟨c, hc, -⟩; exact hl _ _ _ hc),
        if_neg (by rintro ⟨c, hc, -⟩; exact hl _ _ _ hc)]
    simp only [Option.map_some, Option.some.injEq]
    have h3 : (unlink w db t U) = id := funext h2
    rw [h3, List.map_id]
    cases U
    simp only at h1 ⊢
    rw [h1]

theorem drop_effect {R : Str → Prop} {db db' : Db V} (h : fk = true → Inv R db) {n : Name}
    (hr : R (key n)) (he : exec w fk db (.dropTable n) = some db') :
    (∃ T, db (key n) = some T) ∧ db' = db.put (key n) none := by
  have he := exec_effect he
  simp only [effect] at he
  cases e : db (key n) with
  | none => rw [e] at he; cases he
  | some T =>
    rw [e] at he
    refine ⟨⟨T, rfl⟩, ?_⟩
    dsimp only at he
    by_cases hk : fk = true
    · rw [if_pos hk] at he
      split at he
      · cases he
      · cases he
        funext u
        by_cases hu : u = key n
        · subst hu; simp
        · rw [put_ne _ _ hu, put_ne _ _ hu, deleteAll_other (h hk) hr hu]
    · rw [if_neg hk] at he
      cases he; rfl

theorem rename_free {n m : Str} {t : Tbl V} (h : ∀ f ∈ t.fkeys, key f.2.table ≠ n) :
    Tbl.rename n m t = t := by
  cases t with
  | mk cols cons rows =>
  unfold Tbl.rename
  have h1 : ∀ c ∈ cols, c.ref.map (Ref.rename n m) = c.ref := by
    intro c hc
    cases e : c.ref with
    | none => rfl
    | some r =>
      have := h ([c.name], r) (by
        simp only [Tbl.fkeys, List.mem_append, List.mem_filterMap]
        exact Or.inl ⟨c, hc, by rw [e]; rfl⟩)
      simp only [Option.map_some, Option.some.injEq, Ref.rename]
      rw [if_neg this]
  congr 1
  · refine (List.map_congr_left fun c hc => ?_).trans (List.map_id _)
    rw [h1 c hc]; rfl
  · refine (List.map_congr_left fun c hc => ?_).trans (List.map_id _)
    cases c with
    | mk name kind a b d =>
    cases kind with
    | foreign fcols ref =>
      have := h (fcols, ref) (by
        simp only [Tbl.fkeys, List.mem_append, List.mem_filterMap]
        exact Or.inr ⟨_, hc, rfl⟩)
      simp only [Ref.rename]
      rw [if_neg this]
      rfl
    | _ => rfl

theorem rename_effect {db db' : Db V} {n : Name} {m : Str}
    (h : fk = true → ∀ u U f, db u = some U → f ∈ U.fkeys → key f.2.table ≠ key n)
    (he : exec w fk db (.renameTable n m) = some db') :
    ∃ T, db (key n) = some T ∧ db (fold m) = none ∧
      db' = (db.put (key n) none).put (fold m) (some T) := by
  have he := exec_effect he
  simp only [effect] at he
  cases e1 : db (key n) with
  | none => rw [e1] at he; cases he
  | some T =>
    cases e2 : db (fold m) with
    | some S => rw [e1, e2] at he; cases he
    | none =>
      rw [e1, e2] at he
      refine ⟨T, rfl, rfl, ?_⟩
      simp only [Option.some.injEq] at he
      rw [← he]
      by_cases hk : fk = true
      · rw [if_pos hk]
        funext u
        cases e : ((db.put (key n) none).put (fold m) (some T)) u with
        | none => rfl
        | some U =>
          simp only [Option.map_some, Option.some.injEq]
          refine rename_free ?_
          intro f hf
          by_cases hu : u = fold m
          · subst hu
            rw [put_self] at e
            cases e
            exact h hk _ _ f e1 hf
          · rw [put_ne _ _ hu] at e
            by_cases hu' : u = key n
            · subst hu'; rw [put_self] at e; cases e
            · rw [put_ne _ _ hu'] at e
              exact h hk _ _ f e hf
      · rw [if_neg hk]

theorem create_effect {db db' : Db V} {n : Name} {xs : List Item}
    (he : exec w fk db (.createTable n xs) = some db') :
    db (key n) = none ∧ db' = db.put (key n) (some ⟨colsOf xs, consOf xs, []⟩) := by
  have he := exec_effect he
  simp only [effect] at he
  cases e : db (key n) with
  | some T => rw [e] at he; cases he
  | none =>
    rw [e] at he
    simp only [Option.some.injEq] at he
    exact ⟨rfl, he.symm⟩

theorem copy_effect {db db' : Db V} {n m : Name} {cols vals : List Str}
    (he : exec w fk db (.copyRows n cols vals m) = some db') :
    ∃ t s, db (key n) = some t ∧ db (key m) = some s ∧ (cols.map fold).Nodup ∧
      cols.all (settable t.cols) = true ∧
      db' = db.put (key n) (some { t with
        rows := t.rows ++ (w.scan s.rows).map (newRow w t.cols cols vals) }) := by
  have he := exec_effect he
  simp only [effect] at he
  cases e1 : db (key n) with
  | none => rw [e1] at he; cases he
  | some t =>
    cases e2 : db (key m) with
    | none => rw [e1, e2] at he; cases he
    | some s =>
      rw [e1, e2] at he
      dsimp only at he
      split at he
      · rename_i h
        simp only [Option.some.injEq] at he
        exact ⟨t, s, rfl, rfl, h.2.1, h.2.2.1, he.symm⟩
      · cases he

end LiteSpec
