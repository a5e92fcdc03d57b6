import Verif.Spec.PgEngine
import Verif.Lemmas.EnginePlan

/-!
# Running statements one after the other on Postgres
-/

namespace PgSpec
open SqlSpec Sqddl DdlText PgText EngineSpec
open PgText (Act Stmt)

theorem put_put {α β : Type} [DecidableEq α] (f : α → β) (a : α) (b c : β) :
    put (put f a b) a c = put f a c := by
  funext x
  unfold put
  split <;> rfl

theorem put_eq {α β : Type} [DecidableEq α] {f : α → β} {a : α} {b : β} (h : f a = b) :
    put f a b = f := by
  funext x
  unfold put
  split
  · subst_vars; rfl
  · rfl

theorem runs_append {db m db' : Db} {a b : List PgText.Stmt} (h1 : Runs db a m) (h2 : Runs m b db') :
    Runs db (a ++ b) db' := by
  induction a generalizing db with
  | nil => cases h1; exact h2
  | cons s r ih => exact ⟨h1.1, ih h1.2⟩

/-- Statements that keep an invariant, several for every element. -/
theorem runs_flatMap {α : Type} (f : α → List PgText.Stmt) (P : List α → Db → Prop)
    (hs : ∀ x xs db, P (x :: xs) db → ∃ m, Runs db (f x) m ∧ P xs m) :
    ∀ xs db, P xs db → ∃ db', Runs db (xs.flatMap f) db' ∧ P [] db' := by
  intro xs
  induction xs with
  | nil => intro db h; exact ⟨db, rfl, h⟩
  | cons x xs ih =>
    intro db h
    obtain ⟨m, h1, h2⟩ := hs x xs db h
    obtain ⟨db', h3, h4⟩ := ih m h2
    exact ⟨db', runs_append h1 h3, h4⟩

/-! ## Parts of ALTER TABLE -/

/-- The parts are not refused, one after the other, and the table becomes the last one. -/
def Steps (db : Db) (k : Key) : Tbl → List Act → Tbl → Prop
  | t, [], t' => t = t'
  | t, a :: r, t' => Ok (db.withTable k t) k t a ∧ Steps db k (eff t a) r t'

theorem Steps.append {db : Db} {k : Key} {t m t' : Tbl} {a b : List Act} (h1 : Steps db k t a m)
    (h2 : Steps db k m b t') : Steps db k t (a ++ b) t' := by
  induction a generalizing t with
  | nil => cases h1; exact h2
  | cons s r ih => exact ⟨h1.1, ih h1.2⟩

theorem steps_flatMap {db : Db} {k : Key} {α : Type} (f : α → List Act) (P : List α → Tbl → Prop)
    (hs : ∀ x xs t, P (x :: xs) t → ∃ m, Steps db k t (f x) m ∧ P xs m) :
    ∀ xs t, P xs t → ∃ t', Steps db k t (xs.flatMap f) t' ∧ P [] t' := by
  intro xs
  induction xs with
  | nil => intro t h; exact ⟨t, rfl, h⟩
  | cons x xs ih =>
    intro t h
    obtain ⟨m, h1, h2⟩ := hs x xs t h
    obtain ⟨t', h3, h4⟩ := ih m h2
    exact ⟨t', h1.append h3, h4⟩

theorem withTable_self (db : Db) (k : Key) (t : Tbl) : (db.withTable k t).table k = some t := by
  simp [Db.withTable, put_self]

theorem withTable_other {db : Db} {k k' : Key} (t : Tbl) (h : k' ≠ k) :
    (db.withTable k t).table k' = db.table k' := by
  simp [Db.withTable, put_ne _ _ h]

theorem withTable_eq {db : Db} {k : Key} {t : Tbl} (h : db.table k = some t) : db.withTable k t = db := by
  unfold Db.withTable
  rw [put_eq h]

theorem onTable_withTable (db : Db) (k : Key) (t : Tbl) (a : Act) :
    onTable (db.withTable k t) k a = db.withTable k (eff t a) := by
  unfold onTable
  rw [withTable_self]
  unfold Db.withTable
  rw [Option.map_some, put_put]

/-- The parts are run as statements of their own. -/
theorem runs_steps {db : Db} {k : Key} {t t' : Tbl} {as : List Act} (nm : DdlText.Name)
    (hk : key nm = k) (h : Steps db k t as t') :
    Runs (db.withTable k t) (as.map fun a => .alter nm [a]) (db.withTable k t') := by
  subst hk
  induction as generalizing t with
  | nil => cases h; rfl
  | cons a r ih =>
    refine ⟨⟨⟨t, withTable_self _ _ _, h.1⟩, ?_⟩, ?_⟩
    · rw [onTable_withTable]
      show ((db.withTable (key nm) (eff t a)).table (key nm)).isSome = true
      rw [withTable_self]; rfl
    · show Runs (onTable (db.withTable (key nm) t) (key nm) a) _ _
      rw [onTable_withTable]
      exact ih h.2

/-- The parts that change one column. -/
def colOf? : Act → Option Str
  | .setType n _ _ => some n
  | .dropDefault n => some n
  | .setDefault n _ => some n
  | .dropNotNull n => some n
  | .setNotNull n => some n
  | .dropIdentity n => some n
  | .addIdentity n _ => some n
  | _ => none

/-- A change of a column. -/
theorem step_col {db : Db} {k : Key} {t : Tbl} {n : Str} {c c' : Col} {a : Act}
    (ha : colOf? a = some n) (hc : t.col n = some c) (h : colAct c a = some c')
    (hg : ∀ ty co, a = .setType n ty co → ∀ m d, t.col m = some d → generatedFrom n d = false)
    (hp : a = .dropNotNull n → ∀ m d cs, t.con m = some d → d.kind = .primary cs → n ∉ cs) :
    Steps db k t [a] { t with col := put t.col n (some c') } := by
  have e : eff t a = { t with col := put t.col n (some c') } := by
    cases a <;> simp only [colOf?] at ha <;> try cases ha
    all_goals
      simp only [eff, hc, Option.bind_some, h]
  refine ⟨?_, e⟩
  cases a <;> simp only [colOf?] at ha <;> try cases ha
  case setType ty co => exact ⟨⟨c, c', hc, h⟩, hg ty co rfl⟩
  case dropNotNull => exact ⟨⟨c, c', hc, h⟩, hp rfl⟩
  all_goals exact ⟨c, c', hc, h⟩

end PgSpec
