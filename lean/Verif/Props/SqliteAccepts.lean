import Verif.Spec.SqliteAccepts
import Verif.Props.SqliteConvergesSample

/-!
# SQLite accepts the statements of a migration (C71)
-/

namespace LiteSchema
open SqlSpec Sqddl LiteText
open LiteSpec (fold key findCol inCon colsOf consOf)
open DdlText hiding Stmt readStmt runScript Rule

variable {fk : Bool}

theorem Accepted.runs {db : Sch} {sts : List Stmt} (h : Accepted fk db sts) :
    ∃ db', run fk db sts = some db' := by
  induction sts generalizing db with
  | nil => exact ⟨db, rfl⟩
  | cons st sts ih =>
    obtain ⟨-, d, h1, h2⟩ := h
    obtain ⟨db', h3⟩ := ih h2
    exact ⟨db', by rw [run, h1]; exact h3⟩

theorem Accepted.append {db : Sch} {a b : List Stmt} (ha : Accepted fk db a)
    (hb : ∀ m, run fk db a = some m → Accepted fk m b) : Accepted fk db (a ++ b) := by
  induction a generalizing db with
  | nil => exact hb db rfl
  | cons st a ih =>
    obtain ⟨h0, d, h1, h2⟩ := ha
    exact ⟨h0, d, h1, ih h2 fun m hm => hb m (by rw [run, h1]; exact hm)⟩

theorem Accepted.cons {db m : Sch} {st : Stmt} {sts : List Stmt} (h0 : Fit db st)
    (h1 : effect fk db st = some m) (h2 : Accepted fk m sts) : Accepted fk db (st :: sts) :=
  ⟨h0, m, h1, h2⟩

/-- Indexes belong to tables. -/
def Closed (db : Sch) : Prop := ∀ n k x, db.index n = some (k, x) → (db.table k).isSome = true

theorem without_some {f : Str → Option (Str × Idx)} {k n : Str} {p : Str × Idx}
    (h : without f k n = some p) : f n = some p ∧ p.1 ≠ k := by
  obtain ⟨h1, h2⟩ := Option.filter_eq_some_iff.1 h
  exact ⟨h1, by simpa using h2⟩

theorem effect_closed {db db' : Sch} {st : Stmt} (hc : Closed db) (h : effect fk db st = some db') :
    Closed db' := by
  intro i k x hi
  cases st with
  | pragma a b => cases h; exact hc i k x hi
  | createTable n xs =>
    simp only [effect] at h
    split at h
    · cases h
      obtain ⟨h1, h2⟩ := without_some hi
      show (put db.table (key n) _ k).isSome = true
      rw [put_ne _ _ h2]
      exact hc i k x h1
    · cases h
  | dropTable n =>
    simp only [effect] at h
    split at h
    · cases h
      obtain ⟨h1, h2⟩ := without_some hi
      show (put db.table (key n) _ k).isSome = true
      rw [put_ne _ _ h2]
      exact hc i k x h1
    · cases h
  | createIndex y =>
    simp only [effect] at h
    obtain ⟨t, -, h⟩ := Option.bind_eq_some_iff.1 h
    split at h
    · rename_i hh
      cases h
      have hi : put db.index (fold y.name) (some (key t, y)) i = some (k, x) := hi
      by_cases e : i = fold y.name
      · subst e
        rw [put_self] at hi
        cases hi
        exact hh.1
      · rw [put_ne _ _ e] at hi
        exact hc i k x hi
    · cases h
  | dropIndex n =>
    simp only [effect] at h
    split at h
    · cases h
      have hi : put db.index (key n) none i = some (k, x) := hi
      by_cases e : i = key n
      · subst e; rw [put_self] at hi; cases hi
      · rw [put_ne _ _ e] at hi
        exact hc i k x hi
    · cases h
  | addColumn n c =>
    simp only [effect] at h
    obtain ⟨t, ht, h⟩ := Option.bind_eq_some_iff.1 h
    split at h
    · cases h
    · cases h
      show (put db.table (key n) _ k).isSome = true
      by_cases e : k = key n
      · subst e; rw [put_self]; rfl
      · rw [put_ne _ _ e]; exact hc i k x hi
  | dropColumn n c =>
    simp only [effect] at h
    obtain ⟨t, ht, h⟩ := Option.bind_eq_some_iff.1 h
    obtain ⟨y, hy, h⟩ := Option.bind_eq_some_iff.1 h
    split at h
    · cases h
    · cases h
      show (put db.table (key n) _ k).isSome = true
      by_cases e : k = key n
      · subst e; rw [put_self]; rfl
      · rw [put_ne _ _ e]; exact hc i k x hi
  | renameTable n m =>
    simp only [effect] at h
    obtain ⟨t, ht, h⟩ := Option.bind_eq_some_iff.1 h
    split at h
    · rename_i hm
      cases h
      obtain ⟨p, hp, e⟩ := Option.map_eq_some_iff.1 hi
      obtain ⟨h1, h2⟩ := without_some hp
      have h3 := hc i p.1 p.2 h1
      show ((put (put db.table (key n) none) (fold m) (some t) k).map _).isSome = true
      rw [Option.isSome_map]
      by_cases e1 : p.1 = key n
      · rw [if_pos e1] at e
        cases e
        rw [put_self]; rfl
      · rw [if_neg e1] at e
        subst e
        by_cases e2 : k = fold m
        · rw [e2, put_self]; rfl
        · rw [put_ne _ _ e2, put_ne _ _ e1]
          exact h3
    · cases h
  | copyRows n cs vs m =>
    have := copy_view h
    subst this
    exact hc i k x hi

theorem run_closed {db db' : Sch} {sts : List Stmt} (hc : Closed db)
    (h : run fk db sts = some db') : Closed db' := by
  induction sts generalizing db with
  | nil => cases h; exact hc
  | cons st sts ih =>
    obtain ⟨d, h1, h2⟩ := run_cons h
    exact ih (effect_closed hc h1) h2

/-- Indexes are on the tables where they are allowed to be. -/
def Owned (O : Str → Str → Prop) (db : Sch) : Prop :=
  ∀ k T f, view db k = some (T, f) → ∀ n, f n ≠ none → O n k

theorem owned_put {O : Str → Str → Prop} {db db' : Sch} {k : Str}
    {v : Option (Shape × (Str → Option Idx))} (h : Owned O db)
    (hv : view db' = put (view db) k v) (ho : ∀ T f, v = some (T, f) → ∀ n, f n ≠ none → O n k) :
    Owned O db' := by
  intro u T f hu n hn
  rw [hv] at hu
  by_cases e : u = k
  · subst e
    rw [put_self] at hu
    exact ho T f hu n hn
  · rw [put_ne _ _ e] at hu
    exact h u T f hu n hn

/-- An index that no table has. -/
theorem index_free {O : Str → Str → Prop} {db : Sch} {k n : Str} {T : Shape}
    {f : Str → Option Idx} (hc : Closed db) (ho : Owned O db) (hk : view db k = some (T, f))
    (hf : f n = none) (hO : ∀ u, O n u → u = k) : db.index n = none := by
  cases e : db.index n with
  | none => rfl
  | some p =>
    exfalso
    obtain ⟨u, x⟩ := p
    obtain ⟨U, hU⟩ := Option.isSome_iff_exists.1 (hc n u x e)
    have h1 : on db u n = some x := on_some.2 e
    have h2 := hO u (ho u U (on db u) (view_some.2 ⟨hU, rfl⟩) n (by rw [h1]; simp))
    subst h2
    rw [← (view_some.1 hk).2, h1] at hf
    cases hf

end LiteSchema

namespace Sqddl.Sqlite
open Go SqlSpec CatalogSpec Sqddl.Render Sqddl.Files LiteText
open LiteSpec (fold key findCol inCon colsOf consOf References settable)
open DdlText hiding Stmt readStmt runScript Stmt.resolve Rule ruleOf
open LiteSchema

variable {fk : Bool}

/-! ## Indexes -/

theorem indexes_accepted {O : Str → Str → Prop} {k : Str} {xs : List Index} {db : Sch} {T : Shape}
    {f : Str → Option Idx} (hx : ∀ x ∈ xs, x.tableSchema = [] ∧ fold x.tableName = k)
    (hk : view db k = some (T, f)) (hc : Closed db) (ho : Owned O db)
    (hO : ∀ x ∈ xs, O (fold x.indexName) k ∧ ∀ u, O (fold x.indexName) u → u = k)
    (hfree : ∀ x ∈ xs, f (fold x.indexName) = none)
    (hn : (xs.map fun x => fold x.indexName).Nodup)
    (hcol : ∀ x ∈ xs, ∀ n ∈ named (idxOfIndex x), (findCol T.cols (fold n)).isSome = true) :
    Accepted fk db (xs.map indexOf) := by
  induction xs generalizing db f with
  | nil => exact trivial
  | cons y xs ih =>
    rw [List.map_cons, List.nodup_cons] at hn
    obtain ⟨hy1, hy2⟩ := hx y (by simp)
    have hT := (view_some.1 hk).1
    have hkey : key (nm y.tableName) = k := by rw [key_nm, hy2]
    have hnone : db.index (fold y.indexName) = none :=
      index_free hc ho hk (hfree y (by simp)) (hO y (by simp)).2
    have he : effect fk db (indexOf y) = some ⟨db.table, put db.index (fold y.indexName)
        (some (k, idxOfIndex y))⟩ := by
      show effect fk db (.createIndex (idxOfIndex y)) = _
      simp only [effect]
      rw [idx_table hy1, Option.bind_some, idx_name, hkey, hT, hnone, if_pos ⟨rfl, rfl⟩]
    obtain ⟨T', g, e1, e0, e2⟩ := index_view (idx_table hy1) he
    rw [hkey] at e1 e2
    rw [hk] at e1
    cases e1
    rw [idx_name] at e2
    refine Accepted.cons ?_ he (ih (fun x hx' => hx x (by simp [hx'])) (by rw [e2, put_self])
      (effect_closed hc he) (owned_put ho e2 ?_) (fun x hx' => hO x (by simp [hx'])) ?_ hn.2
      fun x hx' => hcol x (by simp [hx']))
    · intro t U ht hU n hn'
      have ht : (idxOfIndex y).table = some t := ht
      rw [idx_table hy1] at ht
      cases ht
      rw [hkey, hT] at hU
      cases hU
      exact hcol y (by simp) n hn'
    · rintro U g' e n hne
      cases e
      by_cases en : n = fold y.indexName
      · subst en; exact (hO y (by simp)).1
      · rw [put_ne _ _ en] at hne
        exact ho k T f hk n hne
    · intro x hx'
      rw [put_ne _ _ fun e => hn.1 (List.mem_map.2 ⟨x, hx', e⟩)]
      exact hfree x (by simp [hx'])

theorem dropIndexes_accepted {k : Str} {xs : List Index} {db : Sch} {T : Shape}
    {f : Str → Option Idx} (hk : view db k = some (T, f))
    (hx : ∀ x ∈ xs, ∃ i, f (fold x.indexName) = some i)
    (hn : (xs.map fun x => fold x.indexName).Nodup) :
    Accepted fk db (xs.map fun x => .dropIndex (nm x.indexName)) := by
  induction xs generalizing db f with
  | nil => exact trivial
  | cons y xs ih =>
    rw [List.map_cons, List.nodup_cons] at hn
    obtain ⟨i, hi⟩ := hx y (by simp)
    have h0 : db.index (key (nm y.indexName)) = some (k, i) := by
      rw [key_nm, ← on_some, (view_some.1 hk).2, hi]
    obtain ⟨m, he⟩ : ∃ m, effect fk db (.dropIndex (nm y.indexName)) = some m := by
      simp only [effect]
      rw [h0]
      exact ⟨_, rfl⟩
    have e2 := dropIndex_view (n := nm y.indexName) hk (by rw [key_nm]; exact hi) he
    rw [key_nm] at e2
    refine Accepted.cons trivial he (ih (f := put f (fold y.indexName) none) (by rw [e2, put_self])
      (fun x hx' => ?_) hn.2)
    obtain ⟨j, hj⟩ := hx x (by simp [hx'])
    exact ⟨j, by rw [put_ne _ _ fun e => hn.1 (List.mem_map.2 ⟨x, hx', e⟩)]; exact hj⟩

/-! ## Columns -/

theorem dropColumns_accepted {n : Str} {cs : List Column} {db : Sch} {T : Shape}
    {f : Str → Option Idx} (hk : view db (fold n) = some (T, f))
    (hc : ∀ c ∈ cs, ∃ x, findCol T.cols (fold c.columnName) = some x ∧ x.primary = false ∧
      x.unique = false)
    (hcon : ∀ c ∈ cs, ∀ k ∈ T.cons, inCon (fold c.columnName) k = false)
    (hidx : ∀ c ∈ cs, ∀ i x, f i = some x → ∀ m ∈ named x, fold m ≠ fold c.columnName)
    (hrest : ∃ y ∈ T.cols, ∀ c ∈ cs, fold y.name ≠ fold c.columnName)
    (hn : (cs.map fun c => fold c.columnName).Nodup) :
    Accepted fk db (cs.map fun c => .dropColumn (nm n) c.columnName) := by
  induction cs generalizing db T with
  | nil => exact trivial
  | cons c cs ih =>
    rw [List.map_cons, List.nodup_cons] at hn
    obtain ⟨x, hx, hp, hu⟩ := hc c (by simp)
    obtain ⟨hT, hf⟩ := view_some.1 hk
    have hany : T.cons.any (inCon (fold c.columnName)) = false := by
      rw [List.any_eq_false]
      intro k hk'
      rw [hcon c (by simp) k hk']
      simp
    obtain ⟨m, he⟩ : ∃ m, effect fk db (.dropColumn (nm n) c.columnName) = some m := by
      simp only [effect]
      rw [key_nm, hT, Option.bind_some, hx, Option.bind_some, hp, hu, hany]
      exact ⟨_, rfl⟩
    obtain ⟨-, e2⟩ := dropColumn_view (n := nm n) hk he
    rw [key_nm] at e2
    obtain ⟨y, hy, hyc⟩ := hrest
    refine Accepted.cons ⟨fun i z hi m hm => ?_, fun U hU => ?_⟩ he
      (ih (T := { T with cols := T.cols.filter fun y => fold y.name ≠ fold c.columnName })
        (by rw [e2, put_self]) (fun z hz => ?_) (fun z hz => hcon z (by simp [hz]))
        (fun z hz => hidx z (by simp [hz])) ⟨y, ?_, fun z hz => hyc z (by simp [hz])⟩ hn.2)
    · refine hidx c (by simp) i z ?_ m hm
      rw [← hf, on_some]
      exact hi
    · rw [key_nm, hT] at hU
      cases hU
      exact ⟨y, hy, hyc c (by simp)⟩
    · obtain ⟨w, hw, h1, h2⟩ := hc z (by simp [hz])
      refine ⟨w, ?_, h1, h2⟩
      show findCol (T.cols.filter fun y => fold y.name ≠ fold c.columnName) _ = _
      rw [findCol_filter fun e => hn.1 (List.mem_map.2 ⟨z, hz, e⟩)]
      exact hw
    · exact List.mem_filter.2 ⟨hy, by simpa using hyc c (by simp)⟩

theorem addColumns_accepted {n : Str} {cs : List Column} {db : Sch} {T : Shape}
    {f : Str → Option Idx} (hk : view db (fold n) = some (T, f))
    (hc : ∀ c ∈ cs, findCol T.cols (fold c.columnName) = none ∧
      (colOf .sqlite [] true c).primary = false ∧ (colOf .sqlite [] true c).unique = false)
    (hn : (cs.map fun c => fold c.columnName).Nodup) :
    Accepted fk db (cs.map fun c => .addColumn (nm n) (colOf .sqlite [] true c)) := by
  induction cs generalizing db T with
  | nil => exact trivial
  | cons c cs ih =>
    rw [List.map_cons, List.nodup_cons] at hn
    obtain ⟨h1, h2, h3⟩ := hc c (by simp)
    obtain ⟨hT, hf⟩ := view_some.1 hk
    obtain ⟨m, he⟩ : ∃ m, effect fk db (.addColumn (nm n) (colOf .sqlite [] true c)) = some m := by
      simp only [effect]
      rw [key_nm, hT, Option.bind_some]
      refine ⟨_, if_neg ?_⟩
      rw [h2, h3]
      show ¬ ((findCol T.cols (fold c.columnName)).isSome = true ∨ _)
      rw [h1]
      simp
    obtain ⟨-, -, -, e2⟩ := addColumn_view (n := nm n) hk he
    rw [key_nm] at e2
    refine Accepted.cons trivial he
      (ih (T := { T with cols := T.cols ++ [colOf .sqlite [] true c] }) (by rw [e2, put_self])
        (fun z hz => ?_) hn.2)
    obtain ⟨g1, g2⟩ := hc z (by simp [hz])
    refine ⟨?_, g2⟩
    show findCol (T.cols ++ [colOf .sqlite [] true c]) _ = none
    rw [findCol_append, g1, Option.none_or, findCol_none]
    intro w hw e
    rw [List.mem_singleton] at hw
    subst hw
    exact hn.1 (List.mem_map.2 ⟨z, hz, e.symm⟩)

/-! ## New tables -/

theorem sound_name {t : Table} (h : Sound t) : Sound (nameTable t) := by
  obtain ⟨e1, -, e2, e3, -⟩ := nameTable_fields t
  have hl := (live_name t).1
  refine ⟨by rw [hl]; exact h.column, by rw [e2]; exact h.ignored, ?_, fun c hc hu => ?_,
    by rw [e3]; exact h.indexNames, fun x hx n hn => ?_⟩
  · unfold nameTable
    split
    · exact h.primary
    · have : liveConstraints { t with constraints := t.constraints.map sqliteNameConstraint } =
          (liveConstraints t).map sqliteNameConstraint := by
        unfold liveConstraints
        rw [List.filter_map]
        congr 1
        refine List.filter_congr fun x _ => ?_
        simp only [Function.comp, (named_name x).1]
      rw [this, List.filter_map, List.length_map]
      have : ((fun k : Constraint => decide (k.constraintType = b!"PRIMARY KEY")) ∘
          sqliteNameConstraint) = fun k => decide (k.constraintType = b!"PRIMARY KEY") := by
        funext x
        simp only [Function.comp, (named_name x).2.1]
      rw [this]
      exact h.primary
  · rw [hl] at hc
    refine (named_iff t (fun k => k.constraintType = b!"UNIQUE" ∧ k.columns = [c.columnName])
      fun k => ?_).2 (h.unique c hc hu)
    rw [(named_name k).2.1, (named_columns k).1]
  · rw [e3] at hx
    rw [hl]
    exact h.indexes x hx n hn

theorem isPrimary_conOf (k : Constraint) :
    isPrimary (conOf .sqlite [] k) = decide (k.constraintType = b!"PRIMARY KEY") := by
  unfold isPrimary conOf kindOf
  dsimp only
  by_cases h1 : k.constraintType = b!"PRIMARY KEY"
  · rw [if_pos h1]; simp [h1]
  · rw [if_neg h1]
    rw [decide_eq_false h1]
    by_cases h2 : k.constraintType = b!"UNIQUE"
    · rw [if_pos h2]
    rw [if_neg h2]
    by_cases h3 : k.constraintType = b!"FOREIGN KEY"
    · rw [if_pos h3]
    rw [if_neg h3]
    by_cases h4 : k.constraintType = b!"CHECK"
    · rw [if_pos h4]
    rw [if_neg h4]

theorem columnsOf_conOf (k : Constraint) : ∀ n ∈ columnsOf (conOf .sqlite [] k), n ∈ k.columns := by
  intro n hn
  unfold columnsOf conOf kindOf at hn
  dsimp only at hn
  by_cases h1 : k.constraintType = b!"PRIMARY KEY"
  · rw [if_pos h1] at hn; exact hn
  rw [if_neg h1] at hn
  by_cases h2 : k.constraintType = b!"UNIQUE"
  · rw [if_pos h2] at hn; exact hn
  rw [if_neg h2] at hn
  by_cases h3 : k.constraintType = b!"FOREIGN KEY"
  · rw [if_pos h3] at hn; exact hn
  rw [if_neg h3] at hn
  by_cases h4 : k.constraintType = b!"CHECK"
  · rw [if_pos h4] at hn; cases hn
  · rw [if_neg h4] at hn; cases hn

theorem made_find {t : Table} {c : Column} (hc : c ∈ liveColumns t) {n : Str}
    (hn : fold c.columnName = fold n) : (findCol (made t).cols (fold n)).isSome = true := by
  rw [made]
  dsimp only
  rw [colsOf_items]
  cases e : findCol ((liveColumns t).map (colOf .sqlite [] false)) (fold n) with
  | some x => rfl
  | none =>
    exact absurd hn (findCol_none.1 e _ (List.mem_map.2 ⟨c, hc, rfl⟩))

/-- CREATE TABLE for a table of the catalog. -/
theorem made_fit {t : Table} (hw : Whole t) (h : Sound t) (db : Sch) (n : Name) :
    Fit db (.createTable n (itemsOf t)) := by
  refine ⟨?_, ?_, fun c hc m hm => ?_⟩
  · rw [colsOf_items]
    simpa using h.column
  · rw [colsOf_items, consOf_items, List.filter_map, List.filter_map, List.length_map,
      List.length_map]
    have e1 : ((fun c : Col => c.primary) ∘ colOf .sqlite [] false) =
        fun c => c.isPrimaryKey := by
      funext c
      simp [colOf]
    have e2 : isPrimary ∘ conOf .sqlite [] =
        fun k => decide (k.constraintType = b!"PRIMARY KEY") := by
      funext k
      exact isPrimary_conOf k
    rw [e1, e2]
    have hp := h.primary
    have hprim := hw.primary
    have hnod := hw.names
    have hsub : ((tableConstraints .sqlite true t).filter fun k =>
        decide (k.constraintType = b!"PRIMARY KEY")).Sublist
        ((liveConstraints t).filter fun k => decide (k.constraintType = b!"PRIMARY KEY")) := by
      unfold tableConstraints
      exact List.filter_sublist.filter _
    by_cases hcol : ((liveColumns t).filter fun c => c.isPrimaryKey) = []
    · rw [hcol]
      have := hsub.length_le
      simp only [List.length_nil]
      omega
    · -- a column is the primary key
      obtain ⟨c, hc⟩ := List.exists_mem_of_ne_nil _ hcol
      obtain ⟨hc1, hc2⟩ := List.mem_filter.1 hc
      obtain ⟨K, hK, hK1, hK2⟩ := (hprim c hc1).1 hc2
      have huniq : ∀ k ∈ liveConstraints t, k.constraintType = b!"PRIMARY KEY" → k = K := by
        intro k hk hk1
        have m1 : k ∈ (liveConstraints t).filter fun k =>
            decide (k.constraintType = b!"PRIMARY KEY") := List.mem_filter.2 ⟨hk, by simp [hk1]⟩
        have m2 : K ∈ (liveConstraints t).filter fun k =>
            decide (k.constraintType = b!"PRIMARY KEY") := List.mem_filter.2 ⟨hK, by simp [hK1]⟩
        match hl : (liveConstraints t).filter fun k =>
            decide (k.constraintType = b!"PRIMARY KEY") with
        | [] => rw [hl] at m1; cases m1
        | [z] =>
          rw [hl, List.mem_singleton] at m1 m2
          rw [m1, m2]
        | _ :: _ :: _ => rw [hl] at hp; simp at hp
      have h1 : ((tableConstraints .sqlite true t).filter fun k =>
          decide (k.constraintType = b!"PRIMARY KEY")) = [] := by
        rw [List.filter_eq_nil_iff]
        intro k hk e
        unfold tableConstraints at hk
        obtain ⟨hk1, hk2⟩ := List.mem_filter.1 hk
        have := huniq k hk1 (by simpa using e)
        subst this
        simp [primaryKey, hK1, hK2] at hk2
      rw [h1]
      have h2 : ∀ x ∈ (liveColumns t).filter (fun c => c.isPrimaryKey), x = c := by
        intro x hx
        obtain ⟨hx1, hx2⟩ := List.mem_filter.1 hx
        obtain ⟨k, hk, hk1, hk2⟩ := (hprim x hx1).1 hx2
        have := huniq k hk hk1
        subst this
        rw [hK2] at hk2
        refine nodup_inj hnod hx1 hc1 ?_
        have : x.columnName = c.columnName := by
          have := List.cons.inj hk2
          exact this.1.symm
        rw [this]
      have h3 : ((liveColumns t).filter fun c => c.isPrimaryKey).Nodup := by
        refine List.Nodup.sublist List.filter_sublist ?_
        exact (List.pairwise_map.1 hnod).imp fun h e => h (by rw [e])
      match hl : (liveColumns t).filter fun c => c.isPrimaryKey with
      | [] => rw [hl]; simp
      | [z] => rw [hl]; simp
      | a :: b :: r =>
        rw [hl] at h2 h3
        have e1 := h2 a (by simp)
        have e2 := h2 b (by simp)
        rw [e1, e2] at h3
        simp at h3
  · rw [consOf_items] at hc
    obtain ⟨k, hk, rfl⟩ := List.mem_map.1 hc
    have := hw.columns k (List.mem_filter.1 hk).1 m (columnsOf_conOf k m hm)
    obtain ⟨x, hx, hxn⟩ := hasColumn_iff.1 this
    exact made_find hx (by rw [hxn])

/-- A table that is created, with its indexes. -/
theorem create_accepted {O : Str → Str → Prop} {t : Table} {db : Sch} (hw : Whole t) (h : Sound t)
    (hv : view db (fold t.tableName) = none) (hc : Closed db) (ho : Owned O db)
    (hO : ∀ x ∈ t.indexes, O (fold x.indexName) (fold t.tableName) ∧
      ∀ u, O (fold x.indexName) u → u = fold t.tableName) :
    Accepted fk db (createOf t) := by
  have hnod : ((colsOf (itemsOf t)).map fun c => fold c.name).Nodup := by
    rw [colsOf_items, List.map_map]
    exact hw.names
  obtain ⟨m, he⟩ : ∃ m, effect fk db (.createTable (nm t.tableName) (itemsOf t)) = some m := by
    simp only [effect]
    rw [key_nm, view_none.1 hv, if_pos ⟨rfl, hnod⟩]
    exact ⟨_, rfl⟩
  obtain ⟨-, -, e3⟩ := create_view he
  rw [key_nm] at e3
  refine Accepted.cons (made_fit hw h db _) he (indexes_accepted (O := O) (k := fold t.tableName)
    (T := made t) (f := fun _ => none)
    (fun x hx => ⟨(hw.indexes x hx).2.1, by rw [(hw.indexes x hx).2.2]⟩) (by rw [e3, put_self]; rfl)
    (effect_closed hc he) (owned_put ho e3 (by rintro U g e n hn; cases e; exact absurd rfl hn)) hO
    (fun _ _ => rfl) h.indexNames fun x hx n hn => ?_)
  obtain ⟨c, hc1, hc2⟩ := h.indexes x hx n hn
  exact made_find hc1 hc2

theorem new_ne (n : Str) : fold (n ++ b!"_new") ≠ fold n := by
  intro e
  have := congrArg List.length e
  simp [fold, toLower] at this

/-- The columns that are copied. -/
theorem insert_facts {src dest : Table} {n : Str} (h : n ∈ insertColumns src dest) :
    (∃ c ∈ src.columns, c.columnName = n) ∧
    ∃ c ∈ dest.columns, c.columnName = n ∧ c.generatedExpr = [] := by
  obtain ⟨h1, h2⟩ := List.mem_filter.1 h
  obtain ⟨c, hc, e⟩ := List.mem_map.1 h1
  obtain ⟨x, hx, e2⟩ := List.any_eq_true.1 h2
  obtain ⟨hx1, hx2⟩ := List.mem_filter.1 hx
  refine ⟨⟨c, hc, e⟩, x, hx1, by simpa using e2, ?_⟩
  simp at hx2
  exact hx2.2

/-- A table that is rebuilt. -/
theorem rebuild_accepted {O : Str → Str → Prop} {R : Str → Prop} {src dest : Table} {db : Sch}
    {T : Shape} {f : Str → Option Idx} (hw : Whole dest) (h : Sound dest)
    (hI : fk = true → NoRef R db) (hR : R (fold (dest.tableName ++ b!"_new")))
    (hd : fk = true → ∀ n, R n → ¬ References dest n)
    (hv : view db (fold dest.tableName) = some (T, f))
    (hsrc : ∀ c ∈ src.columns, (findCol T.cols (fold c.columnName)).isSome = true)
    (hnod : (src.columns.map fun c => fold c.columnName).Nodup)
    (hnew : view db (fold (dest.tableName ++ b!"_new")) = none) (hc : Closed db) (ho : Owned O db)
    (hO : ∀ x ∈ dest.indexes, O (fold x.indexName) (fold dest.tableName) ∧
      ∀ u, O (fold x.indexName) u → u = fold dest.tableName) :
    Accepted fk db (rebuildOf src dest) := by
  have hne := new_ne dest.tableName
  have hnd : ((colsOf (itemsOf dest)).map fun c => fold c.name).Nodup := by
    rw [colsOf_items, List.map_map]
    exact hw.names
  unfold rebuildOf
  obtain ⟨d1, he1⟩ : ∃ m, effect fk db (.createTable (nm (dest.tableName ++ b!"_new"))
      (itemsOf dest)) = some m := by
    simp only [effect]
    rw [key_nm, view_none.1 hnew, if_pos ⟨rfl, hnd⟩]
    exact ⟨_, rfl⟩
  obtain ⟨-, -, v1⟩ := create_view he1
  rw [key_nm] at v1
  have t1 : d1.table (fold (dest.tableName ++ b!"_new")) = some (made dest) := by
    have : view d1 (fold (dest.tableName ++ b!"_new")) = some (made dest, fun _ => none) := by
      rw [v1, put_self]; rfl
    exact (view_some.1 this).1
  have w1 : view d1 (fold dest.tableName) = some (T, f) := by
    rw [v1, put_ne _ _ hne.symm, hv]
  have t2 := (view_some.1 w1).1
  have he2 : effect fk d1 (.copyRows (nm (dest.tableName ++ b!"_new")) (insertColumns src dest)
      (insertColumns src dest) (nm dest.tableName)) = some d1 := by
    simp only [effect]
    rw [key_nm, key_nm, t1, t2, if_pos ⟨rfl, rfl⟩]
  obtain ⟨d3, he3⟩ : ∃ m, effect fk d1 (.dropTable (nm dest.tableName)) = some m := by
    simp only [effect]
    rw [key_nm, t2, if_pos (by rfl)]
    exact ⟨_, rfl⟩
  obtain ⟨-, v3⟩ := drop_view he3
  rw [key_nm] at v3
  have w3 : view d3 (fold (dest.tableName ++ b!"_new")) = some (made dest, fun _ => none) := by
    rw [v3, put_ne _ _ hne, v1, put_self]; rfl
  obtain ⟨d4, he4⟩ : ∃ m, effect fk d3 (.renameTable (nm (dest.tableName ++ b!"_new"))
      dest.tableName) = some m := by
    simp only [effect]
    have : d3.table (fold dest.tableName) = none := by rw [← view_none, v3, put_self]
    rw [key_nm, (view_some.1 w3).1, Option.bind_some, this, if_pos (by rfl)]
    exact ⟨_, rfl⟩
  have hfree : fk = true → NoRef R d3 := fun hk =>
    noRef_remove (noRef_put (hI hk) (fun n hn => made_free (hd hk n hn)) v1) v3
  obtain ⟨-, v4⟩ := rename_view (n := nm (dest.tableName ++ b!"_new")) w3 (fun _ => rfl)
    (fun hk u U hu => hfree hk u U hu _ hR) he4
  rw [key_nm] at v4
  have hnone : ∀ (k : Str) (T : Shape) (g : Str → Option Idx),
      some (made dest, fun _ => none) = some (T, g) → ∀ n, g n ≠ none → O n k := by
    rintro k U g e n hn
    cases e
    exact absurd rfl hn
  have o1 := owned_put ho v1 (hnone _)
  have o3 := owned_put o1 v3 (by intro _ _ e; cases e)
  have o4 : Owned O d4 := by
    intro u U g hu n hn
    rw [v4] at hu
    by_cases e1 : u = fold dest.tableName
    · subst e1; rw [put_self] at hu; exact hnone _ U g hu n hn
    · rw [put_ne _ _ e1] at hu
      by_cases e2 : u = fold (dest.tableName ++ b!"_new")
      · subst e2; rw [put_self] at hu; cases hu
      · rw [put_ne _ _ e2] at hu
        exact o3 u U g hu n hn
  have c4 := effect_closed (effect_closed (effect_closed hc he1) he3) he4
  refine Accepted.cons (made_fit hw h db _) he1 (Accepted.cons ⟨rfl, ?_, fun U hU c hc' => ?_,
    fun U hU c hc' => ?_⟩ he2 (Accepted.cons trivial he3 (Accepted.cons trivial he4
      (indexes_accepted (O := O) (k := fold dest.tableName) (T := made dest) (f := fun _ => none)
        (fun x hx => ⟨(hw.indexes x hx).2.1, by rw [(hw.indexes x hx).2.2]⟩)
        (by rw [v4, put_self]) c4 o4 hO (fun _ _ => rfl) h.indexNames fun x hx n hn => ?_))))
  · have : ((insertColumns src dest).map fold).Sublist (src.columns.map fun c => fold c.columnName) := by
      unfold insertColumns
      have := (List.filter_sublist (l := src.columns.map (·.columnName)) (p := fun n =>
        (dest.columns.filter fun c => !(c.isGenerated || c.generatedExpr ≠ [])).any fun c =>
          c.columnName == n)).map fold
      rwa [List.map_map] at this
    exact hnod.sublist this
  · rw [key_nm, t1] at hU
    cases hU
    obtain ⟨-, x, hx, e1, e2⟩ := insert_facts hc'
    have hl : x ∈ liveColumns dest := List.mem_filter.2 ⟨hx, by simp [h.ignored x hx]⟩
    have hf : findCol (made dest).cols (fold c) = some (colOf .sqlite [] false x) := by
      rw [made]
      dsimp only
      rw [← e1]
      rw [colsOf_items] at hnd ⊢
      exact findCol_mem (c := colOf .sqlite [] false x) hnd (List.mem_map.2 ⟨x, hl, rfl⟩)
    unfold settable
    rw [hf]
    simp [colOf, e2]
  · rw [key_nm, t2] at hU
    cases hU
    obtain ⟨⟨x, hx, e1⟩, -⟩ := insert_facts hc'
    rw [← e1]
    exact hsrc x hx
  · obtain ⟨c, hc1, hc2⟩ := h.indexes x hx n hn
    exact made_find hc1 hc2

/-! ## Two versions of a table -/

/-- Two versions of a table that can be migrated: names of columns that are equal without regard to
case are equal, some column is in both, the rows of all columns of the source can be read, and a column
that is removed is not in a foreign key of the table constraints, unless the table is rebuilt because
the type or NOT NULL of another column changes. -/
structure _root_.LiteSchema.Passable (s t : Table) (T : Shape) : Prop where
  cases : ∀ x ∈ liveColumns s, ∀ y ∈ liveColumns t, fold x.columnName = fold y.columnName →
    x.columnName = y.columnName
  common : ∃ x ∈ liveColumns s, hasColumn t x.columnName = true
  ignored : ∀ c ∈ s.columns, c.ignore = false
  keys : (∃ x ∈ liveColumns s, ∃ y ∈ liveColumns t, x.columnName = y.columnName ∧
      (x.columnType ≠ y.columnType ∨ x.isNotNull ≠ y.isNotNull)) ∨
    ∀ c ∈ liveColumns s, hasColumn t c.columnName = false → ∀ k ∈ T.cons, ∀ cols r,
      k.kind = .foreign cols r → fold c.columnName ∉ cols.map fold

section
variable {s t : Table} {a : AlterTable} {T : Shape}

theorem rule_kind {c : Constraint} {cols : List Str} {d i : Bool}
    (h : ruleOf c = ⟨.primary cols, d, i⟩ ∨ ruleOf c = ⟨.unique cols, d, i⟩) :
    c.constraintType ≠ b!"FOREIGN KEY" := by
  intro e
  obtain ⟨r, x, y, e⟩ := rule_foreign c e
  rw [e] at h
  rcases h with h | h <;> cases h

/-- A key that the table keeps is one of the destination. -/
theorem key_kept (hf : Full s t a) (hp : InPlace a) (hw : Whole t) (hc : Comparable s t)
    (hT : Shows T s) {r : Rule} (hr : r ∈ T.rules) {cols : List Str}
    (hk : r.kind = .primary cols ∨ r.kind = .unique cols) : ∀ n ∈ cols, hasColumn t n = true := by
  obtain ⟨k, hk1, e⟩ := (rules_name s r).2 ((hT.rules r).1 hr)
  have hcols : ∀ c, ruleOf c = r → c.columns = cols := by
    rintro c rfl
    refine ruleCols_of ?_
    unfold ruleCols
    rcases hk with hk | hk <;> rw [hk]
  cases h : hasConstraint (nameTable t) k.constraintName with
  | true =>
    obtain ⟨y, hy, e1⟩ := hasConstraint_iff.1 h
    have e2 := hc.constraints k hk1 y hy e1.symm
    intro n hn
    have := (whole_name hw).columns y hy n (by rw [hcols y (by rw [← e2, e])]; exact hn)
    unfold hasColumn at this ⊢
    rwa [(live_name t).1] at this
  | false =>
    obtain ⟨h1, -⟩ := hp.drops k (by
      rw [hf.dropConstraints]
      exact List.mem_filter.2 ⟨hk1, by simp [h]⟩)
    exfalso
    refine rule_kind (cols := cols) (d := r.deferrable) (i := r.initiallyDeferred) ?_ h1
    rw [e]
    obtain ⟨x, y, z⟩ := r
    simp only at hk
    rcases hk with hk | hk
    · subst hk; exact Or.inl rfl
    · subst hk; exact Or.inr rfl

/-- A column that is added is not a key. -/
theorem added_free (hf : Full s t a) (hp : InPlace a) (hws : Whole s) (hc : Comparable s t)
    {y : Column} (hy : y ∈ a.addColumns) {ty : Str} (hty : ty ≠ b!"FOREIGN KEY")
    (hkey : ty = b!"PRIMARY KEY" ∨ ty = b!"UNIQUE") :
    ¬ ∃ k ∈ liveConstraints t, k.constraintType = ty ∧ k.columns = [y.columnName] := by
  intro h
  obtain ⟨k, hk, h1, h2⟩ := (named_iff t (fun k => k.constraintType = ty ∧
    k.columns = [y.columnName]) fun k => by rw [(named_name k).2.1, (named_columns k).1]).2 h
  rw [hf.addColumns] at hy
  obtain ⟨-, hy2⟩ := List.mem_filter.1 hy
  cases e : hasConstraint (nameTable s) k.constraintName with
  | true =>
    obtain ⟨x, hx, e1⟩ := hasConstraint_iff.1 e
    have e2 := hc.constraints x hx k hk e1
    have e3 : x.columns = [y.columnName] := by
      refine ruleCols_of ?_
      rw [e2]
      rcases hkey with hkey | hkey
      · rw [rule_primary k (h1.trans hkey), h2]; rfl
      · rw [rule_unique k (h1.trans hkey), h2]; rfl
    have := (whole_name hws).columns x hx y.columnName (by rw [e3]; simp)
    unfold hasColumn at this hy2
    rw [(live_name s).1] at this
    rw [this] at hy2
    cases hy2
  | false =>
    obtain ⟨h3, -⟩ := hp.adds k (by
      rw [hf.addConstraints]
      exact List.mem_filter.2 ⟨hk, by simp [e]⟩)
    exact hty (h1.symm.trans h3)

/-- A table that is changed in place. -/
theorem inPlace_accepted {O : Str → Str → Prop} (hf : Full s t a) (hp : InPlace a)
    (hws : Whole s) (hw : Whole t) (hso : Sound t) (hc : Comparable s t) {db : Sch}
    {f : Str → Option Idx} (hv : view db (fold t.tableName) = some (T, f)) (hT : Shows T s)
    (hi : ∀ n x, f n = some x ↔ ∃ y ∈ liveIndexes s, fold y.indexName = n ∧ idxOfIndex y = x)
    (hpass : Passable s t T) (hcl : Closed db) (ho : Owned O db)
    (hO : ∀ x ∈ t.indexes, O (fold x.indexName) (fold t.tableName) ∧
      ∀ u, O (fold x.indexName) u → u = fold t.tableName) :
    Accepted fk db (inPlaceOf a) := by
  have en : a.destTable.tableName = t.tableName := by rw [hf.destTable, (nameTable_fields t).1]
  have hkeys : ∀ c ∈ liveColumns s, hasColumn t c.columnName = false → ∀ k ∈ T.cons, ∀ cols r,
      k.kind = .foreign cols r → fold c.columnName ∉ cols.map fold := by
    rcases hpass.keys with ⟨x, hx, y, hy, e, h⟩ | h
    · have := common_unchanged hf hp.alterColumns hc hx hy e
      rcases h with h | h
      · exact absurd this.type h
      · exact absurd this.notNull h
    · exact h
  -- names that fold to a removed column
  have hgone : ∀ c ∈ a.dropColumns, ∀ y ∈ liveColumns t, fold y.columnName ≠ fold c.columnName := by
    intro c hc' y hy e
    rw [hf.dropColumns] at hc'
    obtain ⟨h1, h2⟩ := List.mem_filter.1 hc'
    have := hpass.cases c h1 y hy e.symm
    simp only [Bool.not_eq_true', hasColumn_false] at h2
    exact h2 y hy this.symm
  have hdropLive : ∀ c ∈ a.dropColumns, c ∈ liveColumns s ∧ hasColumn t c.columnName = false := by
    intro c hc'
    rw [hf.dropColumns] at hc'
    obtain ⟨h1, h2⟩ := List.mem_filter.1 hc'
    exact ⟨h1, by simpa using h2⟩
  have hdi : ∀ x ∈ a.dropIndexes, ∃ i, f (fold x.indexName) = some i := fun x hx => by
    rw [hf.dropIndexes] at hx
    exact ⟨_, (hi _ _).2 ⟨x, (List.mem_filter.1 hx).1, rfl, rfl⟩⟩
  have hdn : (a.dropIndexes.map fun x => fold x.indexName).Nodup := by
    rw [hf.dropIndexes]
    exact hc.indexNames.sublist (List.Sublist.map _ List.filter_sublist)
  -- the indexes that are kept
  have hkept : ∀ n x, f n = some x → (∀ y ∈ a.dropIndexes, fold y.indexName ≠ n) →
      ∃ z ∈ t.indexes, fold z.indexName = n ∧ idxOfIndex z = x ∧ hasIndex s z.indexName = true := by
    intro n x hn hno
    obtain ⟨y, hy, rfl, rfl⟩ := (hi n x).1 hn
    cases h : hasIndex t y.indexName with
    | true =>
      obtain ⟨z, hz, e⟩ := hasIndex_iff.1 h
      refine ⟨z, whole_indexes hw ▸ hz, by rw [e], (hc.indexes y hy z hz e.symm).symm, ?_⟩
      exact hasIndex_iff.2 ⟨y, hy, e.symm⟩
    | false =>
      exact absurd rfl (hno y (by
        rw [hf.dropIndexes]
        exact List.mem_filter.2 ⟨hy, by rw [h]; rfl⟩))
  unfold inPlaceOf
  rw [en]
  rw [List.append_assoc, List.append_assoc]
  refine Accepted.append (dropIndexes_accepted hv hdi hdn) fun d1 h1 => ?_
  obtain ⟨f1, v1, i1⟩ := dropIndexes_view hv hdi hdn h1
  have c1 := run_closed hcl h1
  have o1 : Owned O d1 := owned_put ho v1 (by
    rintro U g e n hn
    cases e
    cases e' : f1 n with
    | none => exact absurd e' hn
    | some x => exact ho _ T f hv n (by rw [((i1 n x).1 e').1]; simp))
  have w1 : view d1 (fold t.tableName) = some (T, f1) := by rw [v1, put_self]
  have hcon : ∀ c ∈ a.dropColumns, ∀ k ∈ T.cons, inCon (fold c.columnName) k = false := by
    intro c hc' k hk
    obtain ⟨l1, l2⟩ := hdropLive c hc'
    cases e : inCon (fold c.columnName) k with
    | false => rfl
    | true =>
      exfalso
      have hr : conRule k ∈ T.rules := mem_rules.2 (Or.inr ⟨k, hk, rfl⟩)
      have hmem : ∀ cols : List Str, (cols.map fold).contains (fold c.columnName) = true →
          ∃ n ∈ cols, fold n = fold c.columnName := fun cols h => by
        rw [List.contains_iff_mem] at h
        exact List.mem_map.1 h
      have hbad : ∀ cols : List Str, (conRule k).kind = .primary cols ∨ (conRule k).kind = .unique cols →
          (cols.map fold).contains (fold c.columnName) = true → False := by
        intro cols hk' h
        obtain ⟨n, hn, en⟩ := hmem cols h
        obtain ⟨y, hy, ey⟩ := hasColumn_iff.1 (key_kept hf hp hw hc hT hr hk' n hn)
        exact hgone c hc' y hy (by rw [ey, en])
      unfold inCon at e
      split at e
      · rename_i cols hkk; exact hbad cols (Or.inl hkk) e
      · rename_i cols hkk; exact hbad cols (Or.inr hkk) e
      · rename_i cols r hkk
        rw [List.contains_iff_mem] at e
        exact hkeys c l1 l2 k hk cols r hkk e
      · cases e
  refine Accepted.append (dropColumns_accepted w1 (fun c hc' => ?_) hcon (fun c hc' i x hx m hm => ?_)
    ?_ ?_) fun d2 h2 => ?_
  · obtain ⟨l1, l2⟩ := hdropLive c hc'
    obtain ⟨x, hx, hb⟩ := Shows.find hT hc.columns l1
    have hname : x.name = c.columnName := congrArg Col.name hb
    have hxm := (findCol_some hx).1
    have hno : ∀ r ∈ colRules x, ¬ (r.kind = .primary [x.name] ∨ r.kind = .unique [x.name]) := by
      intro r hr hk
      have := key_kept hf hp hw hc hT (mem_rules.2 (Or.inl ⟨x, hxm, hr⟩)) hk x.name (by simp)
      rw [hname, l2] at this
      cases this
    refine ⟨x, hx, ?_, ?_⟩
    · cases e : x.primary with
      | false => rfl
      | true =>
        exact absurd (Or.inl rfl) (hno ⟨.primary [x.name], false, false⟩ (by
          unfold colRules; rw [e]; simp))
    · cases e : x.unique with
      | false => rfl
      | true =>
        exact absurd (Or.inr rfl) (hno ⟨.unique [x.name], false, false⟩ (by
          unfold colRules; rw [e]; simp))
  · obtain ⟨j1, j2⟩ := (i1 i x).1 hx
    obtain ⟨z, hz, -, e, -⟩ := hkept i x j1 j2
    subst e
    obtain ⟨y, hy, ey⟩ := hso.indexes z hz m hm
    rw [← ey]
    exact hgone c hc' y hy
  · obtain ⟨x, hx, hh⟩ := hpass.common
    obtain ⟨y, hy, ey⟩ := hasColumn_iff.1 hh
    obtain ⟨w, hw1, hw2⟩ := Shows.find hT hc.columns hx
    refine ⟨w, (findCol_some hw1).1, fun c hc' e => ?_⟩
    rw [(findCol_some hw1).2, ← ey] at e
    exact hgone c hc' y hy e
  · rw [hf.dropColumns]
    exact hc.columns.sublist (List.Sublist.map _ List.filter_sublist)
  obtain ⟨-, v2⟩ := dropColumns_view w1 h2
  have c2 := run_closed c1 h2
  have o2 : Owned O d2 := owned_put o1 v2 (by
    rintro U g e n hn
    cases e
    exact o1 _ T f1 w1 n hn)
  have hadd : ∀ y ∈ a.addColumns, y ∈ liveColumns t ∧ hasColumn s y.columnName = false := by
    intro y hy
    rw [hf.addColumns] at hy
    obtain ⟨h1, h2⟩ := List.mem_filter.1 hy
    exact ⟨h1, by simpa using h2⟩
  refine Accepted.append (addColumns_accepted (by rw [v2, put_self]) (fun y hy => ⟨?_, ?_, ?_⟩) ?_)
    fun d3 h3 => ?_
  · obtain ⟨l1, l2⟩ := hadd y hy
    rw [findCol_none]
    intro x hx e
    obtain ⟨z, hz, hzn⟩ := Shows.name hT (List.mem_filter.1 hx).1
    have := hpass.cases z hz y l1 (by rw [← hzn, e])
    rw [hasColumn_false] at l2
    exact l2 z hz this
  · obtain ⟨l1, l2⟩ := hadd y hy
    cases e : y.isPrimaryKey with
    | false => simp [colOf, e]
    | true =>
      exact absurd ((hw.primary y l1).1 e) (added_free hf hp hws hc hy (by decide) (Or.inl rfl))
  · obtain ⟨l1, l2⟩ := hadd y hy
    cases e : y.isUnique with
    | false => simp [colOf, e]
    | true =>
      exact absurd (hso.unique y l1 e) (added_free hf hp hws hc hy (by decide) (Or.inr rfl))
  · rw [hf.addColumns]
    exact hw.names.sublist (List.Sublist.map _ List.filter_sublist)
  obtain ⟨-, -, v3⟩ := addColumns_view (by rw [v2, put_self])
    (by
      refine List.Nodup.sublist ?_ hT.names
      exact List.Sublist.map _ List.filter_sublist) h3
  have c3 := run_closed c2 h3
  have o3 : Owned O d3 := owned_put o2 v3 (by
    rintro U g e n hn
    cases e
    exact o1 _ T f1 w1 n hn)
  have hcr : ∀ x ∈ a.createIndexes, x ∈ t.indexes ∧ hasIndex s x.indexName = false := by
    intro x hx
    rw [hf.createIndexes] at hx
    obtain ⟨h1, h2⟩ := List.mem_filter.1 hx
    rw [whole_indexes hw] at h1
    exact ⟨h1, by simpa using h2⟩
  have w3 : view d3 (fold t.tableName) = some (changed a T, f1) := by rw [v3, put_self]; rfl
  refine indexes_accepted (O := O) (k := fold t.tableName)
    (fun x hx => ⟨(hw.indexes x (hcr x hx).1).2.1, by rw [(hw.indexes x (hcr x hx).1).2.2]⟩) w3 c3
    o3 (fun x hx => hO x (hcr x hx).1) (fun x hx => ?_) ?_ (fun x hx n hn => ?_)
  · obtain ⟨l1, l2⟩ := hcr x hx
    cases e : f1 (fold x.indexName) with
    | none => rfl
    | some i =>
      exfalso
      obtain ⟨j1, j2⟩ := (i1 _ i).1 e
      obtain ⟨z, hz, e1, -, e2⟩ := hkept _ i j1 j2
      have := nodup_inj hso.indexNames hz l1 e1
      subst this
      rw [l2] at e2
      cases e2
  · rw [hf.createIndexes, whole_indexes hw]
    exact hso.indexNames.sublist (List.Sublist.map _ List.filter_sublist)
  · obtain ⟨y, hy, ey⟩ := hso.indexes x (hcr x hx).1 n hn
    have hfind : (findCol (colsOfTable t) (fold n)).isSome = true := by
      cases e : findCol (colsOfTable t) (fold n) with
      | some _ => rfl
      | none => exact absurd ey (findCol_none.1 e _ (List.mem_map.2 ⟨y, hy, rfl⟩))
    rcases inPlace_cols hf hp.alterColumns hw hc hT (fold n) with h | ⟨x', -, y', -, -, -, -, h⟩
    · rw [← Option.isSome_map (f := bare), h, Option.isSome_map]
      exact hfind
    · rw [← Option.isSome_map (f := bare), h]
      rfl

/-- A table that is changed. -/
theorem change_accepted {O : Str → Str → Prop} {R : Str → Prop} (hf : Full s t a)
    (hcp : copies a ≠ none) (hws : Whole s) (hw : Whole t) (hso : Sound t) (hc : Comparable s t)
    {db : Sch} (hk : Start s (view db (fold t.tableName)))
    (hpass : ∀ T, db.table (fold t.tableName) = some T → Passable s t T)
    (hI : fk = true → NoRef R db) (hR : R (fold (t.tableName ++ b!"_new")))
    (hd : fk = true → ∀ n, R n → ¬ References t n)
    (hnew : view db (fold (t.tableName ++ b!"_new")) = none) (hcl : Closed db) (ho : Owned O db)
    (hO : ∀ x ∈ t.indexes, O (fold x.indexName) (fold t.tableName) ∧
      ∀ u, O (fold x.indexName) u → u = fold t.tableName) :
    Accepted fk db (changeOf a) := by
  obtain ⟨T, f, hv, hT, hi⟩ := hk
  have hp := hpass T (view_some.1 hv).1
  unfold changeOf
  split
  · have hd' : fk = true → ∀ n, R n → ¬ References (nameTable t) n :=
      fun e n hn href => hd e n hn (references_name href)
    have hlive : ∀ c ∈ s.columns, c ∈ liveColumns s := fun c hc' =>
      List.mem_filter.2 ⟨hc', by simp [hp.ignored c hc']⟩
    rw [hf.srcTable, hf.destTable]
    refine rebuild_accepted (O := O) (R := R) (whole_name hw) (sound_name hso) hI
      (by rw [(nameTable_fields t).1]; exact hR) hd' (by rw [(nameTable_fields t).1]; exact hv)
      (fun c hc' => ?_) ?_ (by rw [(nameTable_fields t).1]; exact hnew) hcl ho
      (by rw [(nameTable_fields t).1, (nameTable_fields t).2.2.2.1]; exact hO)
    · rw [(nameTable_fields s).2.2.1] at hc'
      obtain ⟨x, hx, -⟩ := Shows.find hT hc.columns (hlive c hc')
      rw [hx]; rfl
    · rw [(nameTable_fields s).2.2.1]
      have : s.columns = liveColumns s := by
        unfold liveColumns
        rw [List.filter_eq_self.2]
        intro c hc'
        simp [hp.ignored c hc']
      rw [this]
      exact hc.columns
  · rename_i hn
    have : copies a = some false := by
      cases e : copies a with
      | none => exact absurd e hcp
      | some b =>
        cases b with
        | true => exact absurd e hn
        | false => rfl
    exact inPlace_accepted hf (copies_false this) hws hw hso hc hv hT hi hp hcl ho hO

end

/-! ## All changes -/

/-- DROP TABLE for several tables. -/
theorem drops_accepted {ts : List Table} {db : Sch}
    (hex : ∀ t ∈ ts, view db (fold t.tableName) ≠ none)
    (hn : (ts.map fun t => fold t.tableName).Nodup) :
    Accepted fk db (ts.map fun t => .dropTable (nm t.tableName)) := by
  induction ts generalizing db with
  | nil => exact trivial
  | cons t ts ih =>
    rw [List.map_cons, List.nodup_cons] at hn
    obtain ⟨m, he⟩ : ∃ m, effect fk db (.dropTable (nm t.tableName)) = some m := by
      simp only [effect]
      have : (db.table (fold t.tableName)).isSome = true := by
        rw [Option.isSome_iff_ne_none]
        exact fun e => hex t (by simp) (view_none.2 e)
      rw [key_nm, if_pos this]
      exact ⟨_, rfl⟩
    obtain ⟨-, e⟩ := drop_view he
    rw [key_nm] at e
    refine Accepted.cons trivial he (ih (fun x hx => ?_) hn.2)
    rw [e, put_ne _ _ fun e => hn.1 (List.mem_map.2 ⟨x, hx, e⟩)]
    exact hex x (by simp [hx])

/-- New tables. -/
theorem creates_accepted {O : Str → Str → Prop} {ts : List Table} {db : Sch}
    (hw : ∀ t ∈ ts, Whole t) (hso : ∀ t ∈ ts, Sound t)
    (habs : ∀ t ∈ ts, view db (fold t.tableName) = none)
    (hn : (ts.map fun t => fold t.tableName).Nodup) (hcl : Closed db) (ho : Owned O db)
    (hO : ∀ t ∈ ts, ∀ x ∈ t.indexes, O (fold x.indexName) (fold t.tableName) ∧
      ∀ u, O (fold x.indexName) u → u = fold t.tableName) :
    Accepted fk db (ts.flatMap createOf) ∧
      ∀ db', run fk db (ts.flatMap createOf) = some db' → Closed db' ∧ Owned O db' := by
  induction ts generalizing db with
  | nil => exact ⟨trivial, by rintro db' h; cases h; exact ⟨hcl, ho⟩⟩
  | cons t ts ih =>
    rw [List.map_cons, List.nodup_cons] at hn
    have hstep : ∀ m, run fk db (createOf t) = some m →
        view m (fold t.tableName) ≠ none ∧ (∀ x ∈ ts, view m (fold x.tableName) = none) ∧
        Closed m ∧ Owned O m := by
      intro m hm
      obtain ⟨-, -, f, e3, e4⟩ :=
        create_group (fun x hx => ((hw t (by simp)).indexes x hx).2) hm
      refine ⟨by rw [e3, put_self]; simp, fun x hx => ?_, run_closed hcl hm, owned_put ho e3 ?_⟩
      · rw [e3, put_ne _ _ fun e => hn.1 (List.mem_map.2 ⟨x, hx, e⟩)]
        exact habs x (by simp [hx])
      · rintro U g e n hne
        cases e
        cases e' : f n with
        | none => exact absurd e' hne
        | some i =>
          obtain ⟨y, hy, rfl, -⟩ := (e4 n i).1 e'
          exact (hO t (by simp) y hy).1
    have hih := fun m (hm : run fk db (createOf t) = some m) =>
      ih (fun x hx => hw x (by simp [hx])) (fun x hx => hso x (by simp [hx]))
        (hstep m hm).2.1 hn.2 (hstep m hm).2.2.1 (hstep m hm).2.2.2
        (fun x hx => hO x (by simp [hx]))
    rw [List.flatMap_cons]
    refine ⟨Accepted.append (create_accepted (hw t (by simp)) (hso t (by simp))
      (habs t (by simp)) hcl ho (hO t (by simp))) fun m hm => (hih m hm).1, fun db' h => ?_⟩
    obtain ⟨m, h1, h2⟩ := run_split h
    exact (hih m h1).2 db' h2

/-- Changed tables. -/
theorem changes_accepted {R : Str → Prop} {O : Str → Str → Prop} {as : List AlterTable} {db : Sch}
    (Q : AlterTable → Table → Table → Prop)
    (hex : ∀ a ∈ as, ∃ s t, Q a s t)
    (hdest : ∀ a ∈ as, ∀ s t, Q a s t → fold t.tableName = fold a.destTable.tableName)
    (hstart : ∀ a ∈ as, ∀ s t, Q a s t → Start s (view db (fold t.tableName)) ∧
      ∀ T, db.table (fold t.tableName) = some T → Passable s t T)
    (htemp : ∀ n, R n → view db n = none)
    (hne : ∀ a ∈ as, ∀ n, R n → fold a.destTable.tableName ≠ n)
    (hacc : ∀ a ∈ as, ∀ s t, Q a s t → ∀ d : Sch, (fk = true → NoRef R d) →
      Start s (view d (fold t.tableName)) →
      (∀ T, d.table (fold t.tableName) = some T → Passable s t T) →
      (∀ n, R n → view d n = none) → Closed d → Owned O d → Accepted fk d (changeOf a))
    (hstep : ∀ a ∈ as, ∀ s t, Q a s t → ∀ d d' : Sch, (fk = true → NoRef R d) →
      Start s (view d (fold t.tableName)) → run fk d (changeOf a) = some d' →
      ∃ v, view d' = put (view d) (fold t.tableName) v ∧ Good (some s) t v ∧
        (fk = true → NoRef R d'))
    (hO : ∀ a ∈ as, ∀ s t, Q a s t → ∀ x ∈ t.indexes, O (fold x.indexName) (fold t.tableName))
    (hn : (as.map fun a => fold a.destTable.tableName).Nodup)
    (hI : fk = true → NoRef R db) (hcl : Closed db) (ho : Owned O db) :
    Accepted fk db (as.flatMap changeOf) := by
  induction as generalizing db with
  | nil => exact trivial
  | cons a as ih =>
    rw [List.flatMap_cons]
    rw [List.map_cons, List.nodup_cons] at hn
    obtain ⟨s0, t0, hq0⟩ := hex a (by simp)
    obtain ⟨st1, st2⟩ := hstart a (by simp) s0 t0 hq0
    refine Accepted.append (hacc a (by simp) s0 t0 hq0 db hI st1 st2 htemp hcl ho) fun d1 h1 => ?_
    obtain ⟨v0, w1, ⟨U, g, w2, -, w4⟩, w3⟩ := hstep a (by simp) s0 t0 hq0 db d1 hI st1 h1
    have hoth : ∀ b ∈ as, ∀ s t, Q b s t → view d1 (fold t.tableName) = view db (fold t.tableName) := by
      intro b hb s t hq
      rw [w1, put_ne]
      rw [hdest a (by simp) s0 t0 hq0, hdest b (by simp [hb]) s t hq]
      exact fun e => hn.1 (List.mem_map.2 ⟨b, hb, e⟩)
    refine ih (fun b hb => hex b (by simp [hb])) (fun b hb => hdest b (by simp [hb]))
      (fun b hb s t hq => ?_) (fun n hn' => ?_) (fun b hb => hne b (by simp [hb]))
      (fun b hb => hacc b (by simp [hb])) (fun b hb => hstep b (by simp [hb]))
      (fun b hb => hO b (by simp [hb])) hn.2 w3 (run_closed hcl h1) (owned_put ho w1 ?_)
    · obtain ⟨k1, k2⟩ := hstart b (by simp [hb]) s t hq
      have e := hoth b hb s t hq
      refine ⟨by rw [e]; exact k1, fun T hT => k2 T ?_⟩
      have : view d1 (fold t.tableName) = some (T, on d1 (fold t.tableName)) :=
        view_some.2 ⟨hT, rfl⟩
      rw [e] at this
      exact (view_some.1 this).1
    · rw [w1, put_ne, htemp n hn']
      rw [hdest a (by simp) s0 t0 hq0]
      exact fun e => hne a (by simp) n hn' e.symm
    · rintro T f e n hne'
      rw [w2] at e
      cases e
      cases e' : g n with
      | none => exact absurd e' hne'
      | some i =>
        obtain ⟨y, hy, rfl, -⟩ := (w4 n i).1 e'
        exact hO a (by simp) s0 t0 hq0 y hy

/-- What a migration drops. -/
def _root_.LiteSchema.Dropped (s d : Schema) (k : Str) : Prop :=
  ∃ x ∈ sqliteTables s, schemaHas d x.tableName = false ∧ fold x.tableName = k

/-- A database of the source that the migration finds as it expects it: the tables of the source are
there, those that are created and the temporary names are not, and the name of an index of the
destination is not used for an index of another table (that stays). -/
structure _root_.LiteSchema.Ready (s d : Schema) (db : Sch) : Prop where
  pairs : ∀ p ∈ sqlitePairs s d, Holds db p.1
  passable : ∀ p ∈ sqlitePairs s d, ∀ T, db.table (fold p.1.tableName) = some T →
    Passable p.1 p.2 T
  dropped : ∀ k, Dropped s d k → db.table k ≠ none
  created : ∀ t ∈ sqliteTables d, ((s.tables.filter fun x => !x.ignore).find? fun x =>
    x.tableName == t.tableName) = none →
    db.table (fold t.tableName) = none ∨ Dropped s d (fold t.tableName)
  temporary : ∀ t ∈ sqliteTables d, db.table (fold (t.tableName ++ b!"_new")) = none
  closed : Closed db
  indexes : ∀ n k x, db.index n = some (k, x) → ∀ t ∈ sqliteTables d, ∀ y ∈ t.indexes,
    fold y.indexName = n → k = fold t.tableName ∨ Dropped s d k

/-- Names of the destination: indexes of different tables have different names, and no table has the
name that another table gets while it is rebuilt. -/
structure _root_.LiteSchema.NamesApart (d : Schema) : Prop where
  indexes : ∀ t ∈ sqliteTables d, ∀ x ∈ t.indexes, ∀ t' ∈ sqliteTables d, ∀ y ∈ t'.indexes,
    fold x.indexName = fold y.indexName → fold t.tableName = fold t'.tableName
  temporary : ∀ t ∈ sqliteTables d, ∀ t' ∈ sqliteTables d,
    fold (t.tableName ++ b!"_new") ≠ fold t'.tableName

/-- An index name that is used by the destination is used on this table only. -/
def Own (d : Schema) (n k : Str) : Prop :=
  ∀ t ∈ sqliteTables d, ∀ y ∈ t.indexes, fold y.indexName = n → k = fold t.tableName

section
variable {src dest : Catalog} {s d : Schema} (hs : SqliteOk src s) (hd : SqliteOk dest d)
include hs hd

/-- The tables that are dropped have different names. -/
theorem drops_nodup (drop : Bool)
    (hn : ((s.tables.filter fun x => !x.ignore).map fun t => fold t.tableName).Nodup) :
    (((sqliteEvents src dest drop).filterMap Ev.dropTable?).map fun t => fold t.tableName).Nodup := by
  have he : sqliteEvents src dest drop = diffEvents .sqlite src dest drop := rfl
  rw [he, sqlite_events hs hd, sqliteSchemaEvents_eq hs.ok hd.ok hs.mem hd.mem]
  have h2 : ∀ l : List Table, (l.map Ev.dropTable).filterMap Ev.dropTable? = l := by
    intro l
    rw [List.filterMap_map]
    have : Ev.dropTable? ∘ Ev.dropTable = some := rfl
    rw [this, List.filterMap_some]
  have h3 : ∀ A B : List Ev, (∀ ev ∈ B, Ev.dropTable? ev = none) →
      ((A.filterMap Ev.dropTable?).map fun t => fold t.tableName).Nodup →
      (((A ++ B).filterMap Ev.dropTable?).map fun t => fold t.tableName).Nodup := by
    intro A B hB h
    rw [List.filterMap_append, List.filterMap_eq_nil_iff.2 hB, List.append_nil]
    exact h
  refine h3 _ _ (fun ev hev => ?_) ?_
  · obtain ⟨x, hx, h⟩ := List.mem_flatMap.1 hev
    split at h
    · rw [List.mem_singleton] at h
      subst h
      rfl
    · rw [sqliteAlterEvents] at h
      grind [Ev.dropTable?]
  cases drop with
  | false => exact List.nodup_nil
  | true =>
    rw [if_pos rfl, h2, sqliteTables_name]
    refine List.Nodup.sublist (List.Sublist.map _ List.filter_sublist) ?_
    rw [List.map_map]
    have : ((fun t : Table => fold t.tableName) ∘ nameTable) = fun t => fold t.tableName := by
      funext t
      simp only [Function.comp, (nameTable_fields t).1]
    rw [this]
    refine hn.sublist (List.Sublist.map _ ?_)
    unfold sqliteTables
    have : s.tables.filter (fun t => !t.ignore && !isVirtualTable t) =
        (s.tables.filter fun t => !t.ignore).filter fun t => !isVirtualTable t := by
      rw [List.filter_filter]
      congr 1
      funext t
      exact Bool.and_comm _ _
    rw [this]
    exact List.filter_sublist

/-- The tables that are created have different names. -/
theorem creates_nodup (drop : Bool)
    (hn : ((sqliteTables d).map fun t => fold t.tableName).Nodup) :
    (((sqliteEvents src dest drop).filterMap Ev.createTable?).map fun t =>
      fold t.tableName).Nodup := by
  have he : sqliteEvents src dest drop = diffEvents .sqlite src dest drop := rfl
  rw [he, sqlite_events hs hd, sqliteSchemaEvents_eq hs.ok hd.ok hs.mem hd.mem, List.filterMap_append]
  have h1 : ∀ l : List Table, (if drop = true then l.map Ev.dropTable else []).filterMap
      Ev.createTable? = [] := by
    intro l
    rw [List.filterMap_eq_nil_iff]
    intro ev hev
    split at hev
    · obtain ⟨x, -, rfl⟩ := List.mem_map.1 hev
      rfl
    · cases hev
  rw [h1, List.nil_append, List.filterMap_flatMap]
  refine List.Nodup.sublist (sublist_flatMap _ _ (fun t : Table => fold t.tableName)
    (fun t => ?_) _) ?_
  · split
    · exact Or.inr ⟨_, rfl, rfl⟩
    · left
      rw [List.filterMap_eq_nil_iff]
      intro ev hev
      rw [sqliteAlterEvents] at hev
      grind [Ev.createTable?]
  · rw [sqliteTables_name, List.map_map]
    have : ((fun t : Table => fold t.tableName) ∘ nameTable) = fun t => fold t.tableName := by
      funext t
      simp only [Function.comp, (nameTable_fields t).1]
    rw [this]
    exact hn

/-- A table that is created is not in the source. -/
theorem create_none (drop : Bool) {t : Table}
    (ht : t ∈ (sqliteEvents src dest drop).filterMap Ev.createTable?) :
    ∃ x ∈ sqliteTables d, t = nameTable x ∧ ((s.tables.filter fun x => !x.ignore).find? fun y =>
      y.tableName == x.tableName) = none := by
  have he : sqliteEvents src dest drop = diffEvents .sqlite src dest drop := rfl
  rw [he, sqlite_events hs hd, sqliteSchemaEvents_eq hs.ok hd.ok hs.mem hd.mem] at ht
  obtain ⟨ev, hev, hc⟩ := List.mem_filterMap.1 ht
  rcases List.mem_append.1 hev with h | h
  · split at h
    · obtain ⟨x, -, rfl⟩ := List.mem_map.1 h; cases hc
    · cases h
  · obtain ⟨x, hx, h⟩ := List.mem_flatMap.1 h
    rw [sqliteTables_name] at hx
    obtain ⟨y, hy, rfl⟩ := List.mem_map.1 hx
    split at h
    · rename_i hno
      rw [List.mem_singleton] at h
      subst h
      cases hc
      refine ⟨y, hy, rfl, ?_⟩
      rw [List.find?_eq_none] at hno ⊢
      intro z hz
      obtain ⟨h1, h2⟩ := List.mem_filter.1 hz
      have := hno (nameTable z) (List.mem_filter.2 ⟨List.mem_map.2 ⟨z, h1, rfl⟩, by
        rw [(nameTable_fields z).2.1]; exact h2⟩)
      rwa [(nameTable_fields z).1, (nameTable_fields y).1] at this
    · rw [sqliteAlterEvents] at h
      grind [Ev.createTable?]

/-- **C71 for SQLite**, with dropObjects: SQLite accepts the statements of the migration one after the
other on a database of the source, so that the conclusion of `sqlite_converges_partial` holds for what
they lead to.  Missing: as there, and what `Passable`, `Ready` and `NamesApart` exclude. -/
theorem sqlite_accepts_partial (hc : LiteSpec.Clear s d)
    (hws : ∀ p ∈ sqlitePairs s d, Whole p.1) (hw : ∀ t ∈ sqliteTables d, Whole t)
    (hso : ∀ t ∈ sqliteTables d, Sound t) (hcmp : ∀ p ∈ sqlitePairs s d, Comparable p.1 p.2)
    (hna : NamesApart d) (pre : Str) (files : List Files.File)
    (hf : migration pre src dest true = some files) :
    ∃ sts, LiteText.runScript (keywords .sqlite) [] (files.flatMap (·.2)) = some sts ∧
      ∀ (fk : Bool) (db : Sch), Ready s d db → (fk = true → Apart db d) → Accepted fk db sts := by
  obtain ⟨copy, hcopy, hread⟩ := migration_plan hs hd true hc pre files hf
  refine ⟨_, hread, fun fk db hr hfk => ?_⟩
  clear hread hf
  have hcp := hasCopy_copies hcopy
  have hap := alter_of_pair hs hd
  have hfp := fun p => full_of_pair hs hd (p := p)
  have hcf := fun t => create_facts hs hd true (t := t)
  have hcn := fun t => create_none hs hd true (t := t)
  have hdf := fun t => drop_facts hs hd true (t := t)
  have hdm := fun t => drop_mem hs hd (t := t)
  have hnod := alters_nodup hs hd true hc.destNames
  have hdnod := drops_nodup hs hd true hc.srcNames
  have hcnod := creates_nodup hs hd true hc.destNames
  have hI : fk = true → NoRef (Temp d) db := by
    rintro e u U hu n ⟨t, ht, rfl⟩
    exact (hfk e t ht).1 u U hu
  have hRef : fk = true → ∀ x ∈ sqliteTables d, ∀ n, Temp d n → ¬ References x n := by
    rintro e x hx n ⟨t, ht, rfl⟩
    exact (hfk e t ht).2 x hx
  have hkeep : ∀ p ∈ sqlitePairs s d, ∀ t ∈ (sqliteEvents src dest true).filterMap Ev.dropTable?,
      fold t.tableName ≠ fold p.2.tableName := by
    intro p hp t ht e
    obtain ⟨m1, m2, m3⟩ := mem_pairs hp
    obtain ⟨-, x, hx, hno, rfl⟩ := hdf t ht
    rw [(nameTable_fields x).1, ← m3] at e
    have hx' := List.mem_filter.1 hx
    simp only [Bool.and_eq_true, Bool.not_eq_true'] at hx'
    have := nodup_inj hc.srcNames (List.mem_filter.2 ⟨hx'.1, by rw [hx'.2.1]; rfl⟩) m1 e
    subst this
    have m2 := List.mem_filter.1 m2
    simp only [Bool.and_eq_true, Bool.not_eq_true'] at m2
    simp only [schemaHas, List.any_eq_false] at hno
    exact hno p.2 m2.1 (by simp [m2.2.1, m3])
  have hstart : ∀ p ∈ sqlitePairs s d, Start p.1 (view db (fold p.2.tableName)) := by
    intro p hp
    obtain ⟨T, e1, e2, e3⟩ := hr.pairs p hp
    rw [← (mem_pairs hp).2.2]
    refine ⟨T, _, view_some.2 ⟨e1, rfl⟩, e2, fun n x => ?_⟩
    rw [on_some]
    exact e3 n x
  have hOwn : ∀ t ∈ sqliteTables d, ∀ x ∈ t.indexes,
      Own d (fold x.indexName) (fold t.tableName) ∧
      ∀ u, Own d (fold x.indexName) u → u = fold t.tableName := fun t ht x hx =>
    ⟨fun t' ht' y hy e => hna.indexes t ht x hx t' ht' y hy e.symm, fun u hu => hu t ht x hx rfl⟩
  generalize sqliteEvents src dest true = evs at *
  have hprag : ∀ (v : Str) (m : Sch), Accepted fk m (pragmaOf copy v) := by
    intro v m
    unfold pragmaOf
    split
    · exact ⟨trivial, m, rfl, trivial⟩
    · exact trivial
  -- after the tables have been dropped
  have hdropped : ∀ m, run fk db (pragmaOf copy b!"on" ++
      (evs.filterMap Ev.dropTable?).map fun t => .dropTable (nm t.tableName)) = some m →
      (∀ t ∈ evs.filterMap Ev.dropTable?, view m (fold t.tableName) = none) ∧
      (∀ k, (∀ t ∈ evs.filterMap Ev.dropTable?, fold t.tableName ≠ k) → view m k = view db k) ∧
      (∀ k, view db k = none → view m k = none) ∧ (fk = true → NoRef (Temp d) m) ∧
      Closed m ∧ Owned (Own d) m := by
    intro m hm
    have hcl := run_closed hr.closed hm
    obtain ⟨m0, h0, hm'⟩ := run_split hm
    have := pragmas_view h0
    subst this
    obtain ⟨a1, a2, a3, a4⟩ := drops_view hI hm'
    refine ⟨a1, a2, a3, a4, hcl, fun k T f hk n hn t ht y hy hyn => ?_⟩
    have hgone : ¬ Dropped s d k := by
      rintro ⟨x, hx, hno, rfl⟩
      have := a1 _ (hdm x hx hno)
      rw [(nameTable_fields x).1, hk] at this
      cases this
    rw [a2 k fun z hz e => hgone (by
      obtain ⟨-, x, hx, hno, rfl⟩ := hdf z hz
      exact ⟨x, hx, hno, by rw [← e, (nameTable_fields x).1]⟩)] at hk
    cases e : f n with
    | none => exact absurd e hn
    | some x =>
      rw [← (view_some.1 hk).2, on_some] at e
      exact (hr.indexes n k x e t ht y hy hyn).resolve_right hgone
  -- the tables that are created
  have hcreate : ∀ m, run fk db (pragmaOf copy b!"on" ++
      (evs.filterMap Ev.dropTable?).map fun t => .dropTable (nm t.tableName)) = some m →
      Accepted fk m ((evs.filterMap Ev.createTable?).flatMap createOf) ∧
      ∀ m', run fk m ((evs.filterMap Ev.createTable?).flatMap createOf) = some m' →
        Closed m' ∧ Owned (Own d) m' := by
    intro m hm
    obtain ⟨a1, a2, a3, a4, a5, a6⟩ := hdropped m hm
    refine creates_accepted (fun t ht => ?_) (fun t ht => ?_) (fun t ht => ?_) hcnod a5 a6
      (fun t ht => ?_)
    · obtain ⟨x, hx, rfl⟩ := hcf t ht
      exact whole_name (hw x hx)
    · obtain ⟨x, hx, rfl⟩ := hcf t ht
      exact sound_name (hso x hx)
    · obtain ⟨x, hx, rfl, hno⟩ := hcn t ht
      rw [(nameTable_fields x).1]
      rcases hr.created x hx hno with h | ⟨z, hz, hz1, hz2⟩
      · exact a3 _ (view_none.2 h)
      · have := a1 _ (hdm z hz hz1)
        rwa [(nameTable_fields z).1, hz2] at this
    · obtain ⟨x, hx, rfl⟩ := hcf t ht
      rw [(nameTable_fields x).1, (nameTable_fields x).2.2.2.1]
      exact hOwn x hx
  unfold planOf
  refine Accepted.append (Accepted.append (Accepted.append (Accepted.append (hprag _ db)
    fun d1 h1 => ?_) fun d2 h2 => (hcreate d2 h2).1) fun d3 h3 => ?_) fun d4 _ => hprag _ d4
  · -- tables are dropped
    have := pragmas_view h1
    subst this
    refine drops_accepted (fun t ht e => ?_) hdnod
    obtain ⟨-, x, hx, hno, rfl⟩ := hdf t ht
    rw [(nameTable_fields x).1, view_none] at e
    exact hr.dropped _ ⟨x, hx, hno, rfl⟩ e
  · -- tables are changed
    obtain ⟨d2, h2, h3⟩ := run_split h3
    obtain ⟨a1, a2, a3, a4, a5, a6⟩ := hdropped d2 h2
    obtain ⟨c5, c6⟩ := (hcreate d2 h2).2 d3 h3
    obtain ⟨b1, b2, b3, b4⟩ := creates_view a4
      (fun e t ht n hn href => by
        obtain ⟨x, hx, rfl⟩ := hcf t ht
        exact hRef e x hx n hn (references_name href))
      (fun t ht x hx => by
        obtain ⟨y, hy, rfl⟩ := hcf t ht
        exact ((whole_name (hw y hy)).indexes x hx).2) h3
    have hv3 : ∀ p ∈ sqlitePairs s d,
        view d3 (fold p.2.tableName) = view db (fold p.2.tableName) := by
      intro p hp
      have hv2 := a2 _ (hkeep p hp)
      rw [b1 _ _, hv2]
      rw [hv2]
      obtain ⟨T, f, e, -⟩ := hstart p hp
      rw [e]
      simp
    refine changes_accepted (R := Temp d) (O := Own d)
      (fun a x y => (x, y) ∈ sqlitePairs s d ∧ a = sqliteFullAlter
        (newCatalogCache (sqliteNameConstraints src))
        (newCatalogCache (sqliteNameConstraints dest)) (nameTable x) (nameTable y))
      (fun a ha => ?_) (fun a ha x y hq => ?_) (fun a ha x y hq => ⟨?_, fun T hT => ?_⟩)
      (fun n hn => ?_) (fun a ha n hn => ?_) (fun a ha x y hq m e1 e2 e3 e4 e5 e6 => ?_)
      (fun a ha x y hq m m' e1 e2 e3 => ?_) (fun a ha x y hq z hz => ?_) hnod b4 c5 c6
    · obtain ⟨p, hp, -, e⟩ := (hap a).1 ha
      exact ⟨p.1, p.2, hp, e⟩
    · obtain ⟨hp, rfl⟩ := hq
      rw [(hfp _ hp).destTable, (nameTable_fields y).1]
    · rw [hv3 _ hq.1]
      exact hstart _ hq.1
    · have : view d3 (fold y.tableName) = some (T, on d3 (fold y.tableName)) :=
        view_some.2 ⟨hT, rfl⟩
      rw [hv3 _ hq.1] at this
      have m3 : x.tableName = y.tableName := (mem_pairs hq.1).2.2
      exact hr.passable _ hq.1 T (by
        show db.table (fold x.tableName) = some T
        rw [m3]
        exact (view_some.1 this).1)
    · obtain ⟨t, ht, rfl⟩ := hn
      rw [b2 _ fun z hz => by
        obtain ⟨w, hw', rfl⟩ := hcf z hz
        rw [(nameTable_fields w).1]
        exact fun e => hna.temporary t ht w hw' e.symm]
      exact a3 _ (view_none.2 (hr.temporary t ht))
    · obtain ⟨t, ht, rfl⟩ := hn
      obtain ⟨p, hp, -, rfl⟩ := (hap a).1 ha
      rw [(hfp _ hp).destTable, (nameTable_fields p.2).1]
      exact fun e => hna.temporary t ht p.2 (mem_pairs hp).2.1 e.symm
    · obtain ⟨hp, rfl⟩ := hq
      have m2 : y ∈ sqliteTables d := (mem_pairs hp).2.1
      exact change_accepted (O := Own d) (R := Temp d) (hfp _ hp) (hcp _ ha) (hws _ hp) (hw y m2)
        (hso y m2) (hcmp _ hp) e2 e3 e1 ⟨y, m2, rfl⟩ (fun e => hRef e y m2) (e4 _ ⟨y, m2, rfl⟩)
        e5 e6 (hOwn y m2)
    · obtain ⟨hp, rfl⟩ := hq
      have m2 : y ∈ sqliteTables d := (mem_pairs hp).2.1
      exact change_good (hfp _ hp) (hcp _ ha) (hw y m2) (hcmp _ hp) e1 ⟨y, m2, rfl⟩
        (fun e => hRef e y m2) e2 e3
    · exact (hOwn y (mem_pairs hq.1).2.1 z hz).1

/-- **C71 for SQLite**, with dropObjects: on a database of the source, all statements of the migration
are accepted, and then the database is that of the destination. -/
theorem sqlite_migrates_partial (hc : LiteSpec.Clear s d)
    (hws : ∀ p ∈ sqlitePairs s d, Whole p.1) (hw : ∀ t ∈ sqliteTables d, Whole t)
    (hso : ∀ t ∈ sqliteTables d, Sound t) (hcmp : ∀ p ∈ sqlitePairs s d, Comparable p.1 p.2)
    (hna : NamesApart d) (pre : Str) (files : List Files.File)
    (hf : migration pre src dest true = some files) :
    ∃ sts, LiteText.runScript (keywords .sqlite) [] (files.flatMap (·.2)) = some sts ∧
      ∀ (fk : Bool) (db : Sch), Ready s d db → (fk = true → Apart db d) →
        Accepted fk db sts ∧ ∃ db', run fk db sts = some db' ∧
        (∀ t ∈ sqliteTables d, ∃ T, db'.table (fold t.tableName) = some T ∧
          Reached ((s.tables.filter fun x => !x.ignore).find? fun x => x.tableName == t.tableName)
            T t ∧ IndexesAre db' t t.indexes) ∧
        (∀ x ∈ sqliteTables s, schemaHas d x.tableName = false →
          (∀ t ∈ sqliteTables d, fold t.tableName ≠ fold x.tableName) →
          db'.table (fold x.tableName) = none) ∧
        ∀ k, (∀ t ∈ sqliteTables d, fold t.tableName ≠ k) →
          (∀ x ∈ sqliteTables s, schemaHas d x.tableName = false → fold x.tableName ≠ k) →
          SameTable db db' k := by
  obtain ⟨sts, e1, h1⟩ := sqlite_accepts_partial hs hd hc hws hw hso hcmp hna pre files hf
  obtain ⟨sts', e2, h2⟩ := sqlite_converges_partial hs hd hc hw hcmp pre files hf
  rw [e1] at e2
  cases e2
  refine ⟨sts, e1, fun fk db hr hfk => ?_⟩
  have ha := h1 fk db hr hfk
  obtain ⟨db', hdb'⟩ := ha.runs
  exact ⟨ha, db', hdb', h2 fk db db' hr.pairs hfk hdb'⟩

end

end Sqddl.Sqlite
