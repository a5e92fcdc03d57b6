import Verif.Spec.SqliteSchema

/-!
# Lemmas about the schema of a SQLite database
-/

namespace LiteSchema
open SqlSpec Sqddl LiteText
open LiteSpec (fold key findCol inCon colsOf consOf)
open DdlText hiding Stmt readStmt runScript Rule

variable {fk : Bool}

theorem put_self {α : Type} (f : Str → Option α) (n : Str) (v : Option α) : put f n v n = v :=
  if_pos rfl

theorem put_ne {α : Type} (f : Str → Option α) {n m : Str} (v : Option α) (h : m ≠ n) :
    put f n v m = f m := if_neg h

theorem put_put {α : Type} (f : Str → Option α) (n : Str) (v w : Option α) :
    put (put f n v) n w = put f n w := by
  funext m
  by_cases h : m = n
  · subst h; rw [put_self, put_self]
  · rw [put_ne _ _ h, put_ne _ _ h, put_ne _ _ h]

theorem put_same {α : Type} (f : Str → Option α) (n : Str) : put f n (f n) = f := by
  funext m
  by_cases h : m = n
  · subst h; rw [put_self]
  · rw [put_ne _ _ h]

theorem run_cons {db db' : Sch} {st : Stmt} {sts : List Stmt}
    (h : run fk db (st :: sts) = some db') :
    ∃ m, effect fk db st = some m ∧ run fk m sts = some db' := by
  rw [run, Option.bind_eq_some_iff] at h
  exact h

theorem run_split {db db' : Sch} {a b : List Stmt} (h : run fk db (a ++ b) = some db') :
    ∃ m, run fk db a = some m ∧ run fk m b = some db' := by
  induction a generalizing db with
  | nil => exact ⟨db, rfl, h⟩
  | cons st a ih =>
    obtain ⟨d, h1, h2⟩ := run_cons h
    obtain ⟨m, h3, h4⟩ := ih h2
    exact ⟨m, by rw [run, h1]; exact h3, h4⟩

/-! ## A table together with its indexes -/

/-- The indexes of a table. -/
def on (db : Sch) (k : Str) (n : Str) : Option Idx :=
  (db.index n).bind fun p => if p.1 = k then some p.2 else none

/-- A table with its indexes. -/
def view (db : Sch) (k : Str) : Option (Shape × (Str → Option Idx)) :=
  (db.table k).map fun T => (T, on db k)

theorem on_some {db : Sch} {k n : Str} {x : Idx} : on db k n = some x ↔ db.index n = some (k, x) := by
  unfold on
  cases h : db.index n with
  | none => simp
  | some p =>
    obtain ⟨a, b⟩ := p
    by_cases e : a = k
    · subst e; simp
    · simp [e]

theorem view_none {db : Sch} {k : Str} : view db k = none ↔ db.table k = none := by
  simp [view]

theorem view_some {db : Sch} {k : Str} {T : Shape} {f : Str → Option Idx} :
    view db k = some (T, f) ↔ db.table k = some T ∧ on db k = f := by
  unfold view
  cases h : db.table k with
  | none => simp
  | some U => simp

theorem on_without {db : Sch} {t : Option Shape} {k u : Str} (h : u ≠ k) :
    on ⟨put db.table k t, without db.index k⟩ u = on db u := by
  funext n
  show ((db.index n).filter _).bind _ = (db.index n).bind _
  cases db.index n with
  | none => rfl
  | some p =>
    by_cases e : p.1 = k
    · have : p.1 ≠ u := fun e' => h (e' ▸ e)
      simp [Option.filter, e]
      exact e ▸ this
    · simp [Option.filter, e]

theorem on_without_self {db : Sch} {t : Option Shape} {k : Str} :
    on ⟨put db.table k t, without db.index k⟩ k = fun _ => none := by
  funext n
  show ((db.index n).filter _).bind _ = none
  cases db.index n with
  | none => rfl
  | some p =>
    by_cases e : p.1 = k
    · simp [Option.filter, e]
    · simp [Option.filter, e]

/-- CREATE TABLE. -/
theorem create_view {db db' : Sch} {n : Name} {xs : List Item}
    (h : effect fk db (.createTable n xs) = some db') :
    view db (key n) = none ∧ ((colsOf xs).map fun c => fold c.name).Nodup ∧
    view db' = put (view db) (key n) (some (⟨colsOf xs, consOf xs⟩, fun _ => none)) := by
  simp only [effect] at h
  split at h
  · rename_i hc
    cases h
    refine ⟨view_none.2 (by simpa using hc.1), hc.2, ?_⟩
    funext u
    by_cases hu : u = key n
    · subst hu
      rw [put_self, view_some]
      exact ⟨put_self _ _ _, on_without_self⟩
    · rw [put_ne _ _ hu]
      unfold view
      rw [on_without hu]
      show (put db.table (key n) _ u).map _ = _
      rw [put_ne _ _ hu]
  · cases h

/-- DROP TABLE. -/
theorem drop_view {db db' : Sch} {n : Name} (h : effect fk db (.dropTable n) = some db') :
    view db (key n) ≠ none ∧ view db' = put (view db) (key n) none := by
  simp only [effect] at h
  split at h
  · rename_i hc
    cases h
    refine ⟨fun e => (by rw [view_none.1 e] at hc; cases hc), ?_⟩
    funext u
    by_cases hu : u = key n
    · subst hu
      rw [put_self, view_none]
      exact put_self _ _ _
    · rw [put_ne _ _ hu]
      unfold view
      rw [on_without hu]
      show (put db.table (key n) _ u).map _ = _
      rw [put_ne _ _ hu]
  · cases h

/-- CREATE INDEX. -/
theorem index_view {db db' : Sch} {x : Idx} {t : Name} (ht : x.table = some t)
    (h : effect fk db (.createIndex x) = some db') :
    ∃ T f, view db (key t) = some (T, f) ∧ f (fold x.name) = none ∧
      view db' = put (view db) (key t) (some (T, put f (fold x.name) (some x))) := by
  simp only [effect] at h
  rw [ht, Option.bind_some] at h
  split at h
  · rename_i hc
    cases h
    obtain ⟨T, hT⟩ := Option.isSome_iff_exists.1 hc.1
    have hn : db.index (fold x.name) = none := by simpa using hc.2
    refine ⟨T, on db (key t), view_some.2 ⟨hT, rfl⟩, by rw [on, hn]; rfl, ?_⟩
    funext u
    by_cases hu : u = key t
    · subst hu
      rw [put_self, view_some]
      refine ⟨hT, ?_⟩
      funext n
      by_cases e : n = fold x.name
      · subst e
        rw [put_self, on_some]
        exact put_self _ _ _
      · rw [put_ne _ _ e]
        show (put db.index (fold x.name) _ n).bind _ = _
        rw [put_ne _ _ e]
        rfl
    · rw [put_ne _ _ hu]
      unfold view
      have : on ⟨db.table, put db.index (fold x.name) (some (key t, x))⟩ u = on db u := by
        funext n
        show (put db.index (fold x.name) _ n).bind _ = _
        by_cases e : n = fold x.name
        · subst e
          rw [put_self]
          unfold on
          rw [hn]
          exact if_neg fun e => hu e.symm
        · rw [put_ne _ _ e]; rfl
      rw [this]
  · cases h

/-- DROP INDEX, if it is known whose index it is. -/
theorem dropIndex_view {db db' : Sch} {n : Name} {k : Str} {T : Shape} {f : Str → Option Idx}
    (hk : view db k = some (T, f)) {x : Idx} (hx : f (key n) = some x)
    (h : effect fk db (.dropIndex n) = some db') :
    view db' = put (view db) k (some (T, put f (key n) none)) := by
  simp only [effect] at h
  split at h
  · cases h
    obtain ⟨hT, hf⟩ := view_some.1 hk
    subst hf
    have hx := on_some.1 hx
    funext u
    by_cases hu : u = k
    · subst hu
      rw [put_self, view_some]
      refine ⟨hT, ?_⟩
      funext m
      by_cases e : m = key n
      · subst e
        rw [put_self]
        show (put db.index (key n) _ (key n)).bind _ = _
        rw [put_self]; rfl
      · rw [put_ne _ _ e]
        show (put db.index (key n) _ m).bind _ = _
        rw [put_ne _ _ e]
        rfl
    · rw [put_ne _ _ hu]
      unfold view
      have : on ⟨db.table, put db.index (key n) none⟩ u = on db u := by
        funext m
        show (put db.index (key n) _ m).bind _ = _
        by_cases e : m = key n
        · subst e
          rw [put_self]
          unfold on
          rw [hx]
          exact (if_neg fun e => hu e.symm).symm
        · rw [put_ne _ _ e]; rfl
      rw [this]
  · cases h

theorem on_table (db : Sch) (t : Str → Option Shape) : on ⟨t, db.index⟩ = on db := rfl

/-- A change of the table only. -/
theorem view_table {db : Sch} {k : Str} {T T' : Shape} {f : Str → Option Idx}
    (hk : view db k = some (T, f)) :
    view ⟨put db.table k (some T'), db.index⟩ = put (view db) k (some (T', f)) := by
  obtain ⟨hT, hf⟩ := view_some.1 hk
  funext u
  by_cases hu : u = k
  · subst hu
    rw [put_self, view_some]
    exact ⟨put_self _ _ _, hf⟩
  · rw [put_ne _ _ hu]
    unfold view
    rw [on_table]
    show (put db.table k _ u).map _ = _
    rw [put_ne _ _ hu]

/-- ADD COLUMN. -/
theorem addColumn_view {db db' : Sch} {n : Name} {c : Col} {T : Shape} {f : Str → Option Idx}
    (hk : view db (key n) = some (T, f)) (h : effect fk db (.addColumn n c) = some db') :
    findCol T.cols (fold c.name) = none ∧ c.primary = false ∧ c.unique = false ∧
    view db' = put (view db) (key n) (some ({ T with cols := T.cols ++ [c] }, f)) := by
  obtain ⟨hT, hf⟩ := view_some.1 hk
  simp only [effect] at h
  rw [hT, Option.bind_some] at h
  split at h
  · cases h
  · rename_i hc
    cases h
    refine ⟨?_, ?_, ?_, view_table hk⟩
    · cases e : findCol T.cols (fold c.name) with
      | none => rfl
      | some y => exact absurd (Or.inl (by rw [e]; rfl)) hc
    · cases e : c.primary with
      | false => rfl
      | true => exact absurd (Or.inr (Or.inl e)) hc
    · cases e : c.unique with
      | false => rfl
      | true => exact absurd (Or.inr (Or.inr e)) hc

/-- DROP COLUMN. -/
theorem dropColumn_view {db db' : Sch} {n : Name} {c : Str} {T : Shape} {f : Str → Option Idx}
    (hk : view db (key n) = some (T, f)) (h : effect fk db (.dropColumn n c) = some db') :
    (∀ k ∈ T.cons, inCon (fold c) k = false) ∧
    view db' = put (view db) (key n)
      (some ({ T with cols := T.cols.filter fun y => fold y.name ≠ fold c }, f)) := by
  obtain ⟨hT, hf⟩ := view_some.1 hk
  simp only [effect] at h
  rw [hT, Option.bind_some] at h
  obtain ⟨x, -, h⟩ := Option.bind_eq_some_iff.1 h
  split at h
  · cases h
  · rename_i hc
    cases h
    refine ⟨fun k hk => ?_, view_table hk⟩
    cases e : inCon (fold c) k with
    | false => rfl
    | true => exact absurd (Or.inr (Or.inr (List.any_eq_true.2 ⟨k, hk, e⟩))) hc

theorem Shape.rename_free {n m : Str} {T : Shape} (h : T.free n) : T.rename n m = T := by
  obtain ⟨h1, h2⟩ := h
  obtain ⟨cols, cons⟩ := T
  unfold Shape.rename
  congr 1
  · refine (List.map_congr_left (g := id) fun c hc => ?_).trans (List.map_id _)
    cases e : c.ref with
    | none => obtain ⟨⟩ := c; simp at e; simp [e]
    | some r =>
      have := h1 c hc r e
      obtain ⟨⟩ := c
      simp only at e
      subst e
      simp [LiteSpec.Ref.rename, this]
  · refine (List.map_congr_left (g := id) fun c hc => ?_).trans (List.map_id _)
    have := h2 c hc
    obtain ⟨name, kind, a, b, d⟩ := c
    dsimp only at this ⊢
    cases kind with
    | foreign cs r => simp [LiteSpec.Ref.rename, this cs r rfl]
    | _ => rfl

/-- RENAME of a table without indexes. -/
theorem rename_view {db db' : Sch} {n : Name} {m : Str} {T : Shape} {f : Str → Option Idx}
    (hk : view db (key n) = some (T, f)) (hf : ∀ i, f i = none)
    (hfree : fk = true → ∀ u U, db.table u = some U → U.free (key n))
    (h : effect fk db (.renameTable n m) = some db') :
    view db (fold m) = none ∧
    view db' = put (put (view db) (key n) none) (fold m) (some (T, fun _ => none)) := by
  obtain ⟨hT, hf'⟩ := view_some.1 hk
  simp only [effect] at h
  rw [hT, Option.bind_some] at h
  split at h
  · rename_i hc
    have hc : db.table (fold m) = none := by simpa using hc
    cases h
    have hne : key n ≠ fold m := fun e => by rw [← e, hT] at hc; cases hc
    refine ⟨view_none.2 hc, ?_⟩
    -- the tables
    have ht : (fun u => (put (put db.table (key n) none) (fold m) (some T) u).map
        (if fk then Shape.rename (key n) m else id)) =
        put (put db.table (key n) none) (fold m) (some T) := by
      funext u
      cases fk with
      | false => simp
      | true =>
        cases e : put (put db.table (key n) none) (fold m) (some T) u with
        | none => rfl
        | some U =>
          have : ∃ u, db.table u = some U := by
            by_cases h1 : u = fold m
            · subst h1
              rw [put_self] at e
              cases e
              exact ⟨key n, hT⟩
            · rw [put_ne _ _ h1] at e
              by_cases h2 : u = key n
              · subst h2; rw [put_self] at e; cases e
              · rw [put_ne _ _ h2] at e; exact ⟨u, e⟩
          obtain ⟨u', hu'⟩ := this
          simp [Shape.rename_free (hfree rfl u' U hu')]
    rw [ht]
    -- the indexes
    have hi : ∀ i p, db.index i = some p → p.1 ≠ key n := by
      intro i p hp e
      have := hf i
      rw [← hf', ← e] at this
      have h2 : on db p.1 i = some p.2 := on_some.2 (by rw [hp])
      rw [h2] at this
      cases this
    have hidx : (fun i => (without db.index (fold m) i).map fun p =>
        if p.1 = key n then (fold m, { p.2 with table := some (n.1, m) }) else p) =
        without db.index (fold m) := by
      funext i
      cases e : without db.index (fold m) i with
      | none => rfl
      | some p =>
        have : db.index i = some p := (Option.filter_eq_some_iff.1 e).1
        simp [hi i p this]
    rw [hidx]
    funext u
    by_cases hu : u = fold m
    · subst hu
      rw [put_self, view_some]
      refine ⟨put_self _ _ _, ?_⟩
      exact on_without_self (db := ⟨put db.table (key n) none, db.index⟩) (t := some T)
    · rw [put_ne _ _ hu]
      have e := on_without (db := ⟨put db.table (key n) none, db.index⟩) (t := some T) hu
      by_cases hu2 : u = key n
      · subst hu2
        rw [put_self, view_none]
        show put (put db.table (key n) none) (fold m) _ (key n) = none
        rw [put_ne _ _ hne, put_self]
      · rw [put_ne _ _ hu2]
        unfold view
        rw [e]
        show (put (put db.table (key n) none) (fold m) _ u).map _ = _
        rw [put_ne _ _ hu, put_ne _ _ hu2]
        rfl
  · cases h

theorem copy_view {db db' : Sch} {n m : Name} {cs vs : List Str}
    (h : effect fk db (.copyRows n cs vs m) = some db') : db' = db := by
  simp only [effect] at h
  split at h
  · cases h; rfl
  · cases h

theorem pragma_view {db db' : Sch} {n v : Str}
    (h : effect fk db (.pragma n v) = some db') : db' = db := by
  cases h; rfl

end LiteSchema
