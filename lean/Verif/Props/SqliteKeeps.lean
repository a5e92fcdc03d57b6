import Verif.Lemmas.SqliteRows
import Verif.Props.SqliteScript
import Verif.Props.DiffSqlite

/-!
# A SQLite migration keeps the rows (C42)
-/

namespace Sqddl.Sqlite
open Go SqlSpec CatalogSpec Sqddl.Render Sqddl.Files LiteText LiteSpec
open DdlText hiding Stmt readStmt runScript Stmt.resolve

variable {V : Type} {w : World V} {fk : Bool}

theorem key_nm (n : Str) : key (nm n) = fold n := rfl

theorem colsOf_cols {α : Type} (f : α → Col) (xs : List α) (ys : List Item) :
    colsOf (xs.map (fun x => Item.col (f x)) ++ ys) = xs.map f ++ colsOf ys := by
  induction xs with
  | nil => rfl
  | cons x xs ih =>
    rw [List.map_cons, List.map_cons, List.cons_append, List.cons_append, ← ih]; rfl

theorem colsOf_cons {α : Type} (f : α → Con) (xs : List α) :
    colsOf (xs.map (fun x => Item.con (f x))) = [] := by
  induction xs with
  | nil => rfl
  | cons x xs ih => rw [List.map_cons]; exact ih

theorem consOf_cols {α : Type} (f : α → Col) (xs : List α) (ys : List Item) :
    consOf (xs.map (fun x => Item.col (f x)) ++ ys) = consOf ys := by
  induction xs with
  | nil => rfl
  | cons x xs ih => rw [List.map_cons, List.cons_append, ← ih]; rfl

theorem consOf_cons {α : Type} (f : α → Con) (xs : List α) :
    consOf (xs.map (fun x => Item.con (f x))) = xs.map f := by
  induction xs with
  | nil => rfl
  | cons x xs ih => rw [List.map_cons, List.map_cons, ← ih]; rfl

theorem colsOf_items (t : Table) :
    colsOf (itemsOf t) = (liveColumns t).map (colOf .sqlite [] false) := by
  rw [itemsOf, colsOf_cols, colsOf_cons, List.append_nil]

theorem consOf_items (t : Table) :
    consOf (itemsOf t) = (tableConstraints .sqlite true t).map (conOf .sqlite []) := by
  rw [itemsOf, consOf_cols, consOf_cons]

/-- What a created table references. -/
theorem created_references (t : Table) (rows : List (Row V)) (f : List Str × Ref)
    (hf : f ∈ (Tbl.mk (colsOf (itemsOf t)) (consOf (itemsOf t)) rows).fkeys) :
    References t (key f.2.table) := by
  unfold Tbl.fkeys at hf
  rw [colsOf_items, consOf_items] at hf
  rcases List.mem_append.1 hf with h | h
  · obtain ⟨c, hc, h⟩ := List.mem_filterMap.1 h
    obtain ⟨x, -, rfl⟩ := List.mem_map.1 hc
    simp [colOf] at h
  · obtain ⟨c, hc, h⟩ := List.mem_filterMap.1 h
    obtain ⟨x, hx, rfl⟩ := List.mem_map.1 hc
    have hx := (List.mem_filter.1 hx).1
    simp only [conOf, kindOf] at h
    by_cases h1 : x.constraintType = b!"PRIMARY KEY"
    · rw [if_pos h1] at h; cases h
    rw [if_neg h1] at h
    by_cases h2 : x.constraintType = b!"UNIQUE"
    · rw [if_pos h2] at h; cases h
    rw [if_neg h2] at h
    by_cases h3 : x.constraintType = b!"FOREIGN KEY"
    · rw [if_pos h3] at h
      cases h
      exact Or.inl ⟨x, hx, h3, rfl⟩
    rw [if_neg h3] at h
    by_cases h4 : x.constraintType = b!"CHECK"
    · rw [if_pos h4] at h; cases h
    · rw [if_neg h4] at h; cases h

theorem idle_indexes (xs : List Index) : ∀ st ∈ xs.map indexOf, idle st = true := by
  intro st h
  obtain ⟨x, -, rfl⟩ := List.mem_map.1 h
  rfl

theorem find_self {cols : List Str} (h : (cols.map fold).Nodup) {n : Str} (hn : n ∈ cols) :
    (cols.zip cols).find? (fun p => fold p.1 == fold n) = some (n, n) := by
  induction cols with
  | nil => cases hn
  | cons c cols ih =>
    rw [List.zip_cons_cons, List.find?_cons]
    rw [List.map_cons, List.nodup_cons] at h
    by_cases e : fold c = fold n
    · have : c = n := by
        rcases List.mem_cons.1 hn with hn | hn
        · exact hn.symm
        · exact absurd (List.mem_map.2 ⟨n, hn, e.symm⟩) h.1
      simp [this]
    · have : (fold c == fold n) = false := by simpa using e
      simp only [this]
      refine ih h.2 ?_
      rcases List.mem_cons.1 hn with hn | hn
      · exact absurd (by rw [hn]) e
      · exact hn

/-- A table that is rebuilt. -/
theorem rebuild_group {R : Str → Prop} {src dest : Table} {db db' : Db V}
    (hI : fk = true → Inv R db) (hR : R (fold dest.tableName))
    (hRn : R (fold (dest.tableName ++ b!"_new")))
    (hd : fk = true → ∀ n, R n → ¬ References dest n)
    (h : run w fk db (rebuildOf src dest) = some db') :
    ∃ T T', db (fold dest.tableName) = some T ∧ db (fold (dest.tableName ++ b!"_new")) = none ∧
      db' = db.put (fold dest.tableName) (some T') ∧ Kept w T T' (Common src dest) ∧
      (fk = true → Free R T') := by
  unfold rebuildOf at h
  obtain ⟨d4, h, hi⟩ := run_split h
  have hi := run_idle (idle_indexes _) hi
  subst hi
  obtain ⟨d1, h1, h⟩ := run_cons h
  obtain ⟨d2, h2, h⟩ := run_cons h
  obtain ⟨d3, h3, h⟩ := run_cons h
  obtain ⟨d5, h4, h⟩ := run_cons h
  cases h
  obtain ⟨e0, rfl⟩ := create_effect h1
  obtain ⟨t, s, e1, e2, hn, hset, rfl⟩ := copy_effect h2
  simp only [key_nm] at e0 e1 e2 h3 h4
  rw [put_self] at e1
  cases e1
  -- the two names are different
  have hfree : fk = true → ∀ rows : List (Row V),
      Free R (Tbl.mk (colsOf (itemsOf dest)) (consOf (itemsOf dest)) rows) :=
    fun hk rows f hf hr => hd hk _ hr (created_references dest rows f hf)
  obtain ⟨⟨T, e3⟩, rfl⟩ := drop_effect (R := R) (n := nm dest.tableName) (fun hk =>
    ((hI hk).put_free _ _ (hfree hk [])).put_free _ _ (hfree hk _)) hR h3
  have hne : fold (dest.tableName ++ b!"_new") ≠ fold dest.tableName := by
    intro e
    have h4 := exec_effect h4
    simp only [effect, key_nm] at h4
    rw [e, put_self] at h4
    cases h4
  simp only [key_nm] at e3 h4
  rw [put_ne _ _ hne.symm] at e2
  obtain ⟨T', e5, e6, rfl⟩ := rename_effect (fun hk u U f hu hf he => by
    by_cases hu1 : u = fold dest.tableName
    · subst hu1; rw [put_self] at hu; cases hu
    rw [put_ne _ _ hu1] at hu
    by_cases hu2 : u = fold (dest.tableName ++ b!"_new")
    · subst hu2
      rw [put_self] at hu
      cases hu
      exact hfree hk _ f hf (by rw [he]; exact hRn)
    · have := ((hI hk).put_free _ _ (hfree hk [])).put_free _ _ (hfree hk _) u U f hu hf
        (by rw [he]; exact hRn)
      rw [he] at this
      exact hu2 this) h4
  simp only [key_nm] at e5 e6
  rw [put_ne _ _ hne, put_self] at e5
  cases e5
  refine ⟨s, Tbl.mk (colsOf (itemsOf dest)) (consOf (itemsOf dest)) ([] ++ (w.scan s.rows).map
    (newRow w (colsOf (itemsOf dest)) (insertColumns src dest) (insertColumns src dest))),
    e2, e0, ?_, ?_, fun hk => hfree hk _⟩
  · funext u
    simp only [key_nm]
    by_cases hu : u = fold dest.tableName
    · subst hu; rw [put_self, put_self]
    rw [put_ne _ _ hu, put_ne _ _ hu]
    by_cases hu2 : u = fold (dest.tableName ++ b!"_new")
    · subst hu2; rw [put_self, e0]
    rw [put_ne _ _ hu2, put_ne _ _ hu, put_ne _ _ hu2, put_ne _ _ hu2]
  · refine ⟨newRow w (colsOf (itemsOf dest)) (insertColumns src dest) (insertColumns src dest),
      w.scan s.rows, w.scan_perm _, rfl, ?_⟩
    rintro n ⟨hs, c, hc, hcn⟩
    have hmem : n ∈ insertColumns src dest :=
      (mem_insertColumns src dest n).2 ⟨hs, c, (List.mem_filter.1 hc).1, hcn⟩
    have hsn := List.all_eq_true.1 hset n hmem
    unfold settable at hsn
    cases ec : findCol (colsOf (itemsOf dest)) (fold n) with
    | none => rw [ec] at hsn; cases hsn
    | some x =>
      refine ⟨x, rfl, fun r _ => Or.inr ?_⟩
      unfold newRow
      rw [ec]
      have : given (insertColumns src dest) (insertColumns src dest) r (fold n) =
          some (r (fold n)) := by
        unfold given
        rw [find_self hn hmem]
        rfl
      dsimp only
      rw [this]

/-! ## Changes in place -/

/-- What is left as it was, in the columns `ns` (folded names). -/
def Stays (T T' : Tbl V) (ns : Str → Prop) : Prop :=
  ∃ f : Row V → Row V, T'.rows = T.rows.map f ∧
    ∀ n, ns n → (findCol T'.cols n).isSome ∧ ∀ r, f r n = r n

theorem Stays.trans {T T' T'' : Tbl V} {ns : Str → Prop} (h1 : Stays T T' ns)
    (h2 : Stays T' T'' ns) : Stays T T'' ns := by
  obtain ⟨f, e1, h1⟩ := h1
  obtain ⟨g, e2, h2⟩ := h2
  refine ⟨g ∘ f, by rw [e2, e1, List.map_map], fun n hn => ⟨(h2 n hn).1, fun r => ?_⟩⟩
  rw [Function.comp, (h2 n hn).2, (h1 n hn).2]

theorem Stays.refl {T : Tbl V} {ns : Str → Prop} (h : ∀ n, ns n → (findCol T.cols n).isSome) :
    Stays T T ns :=
  ⟨id, by simp, fun n hn => ⟨h n hn, fun _ => rfl⟩⟩

theorem findCol_filter {cols : List Col} {n m : Str} (h : n ≠ m) :
    findCol (cols.filter fun y => fold y.name ≠ m) n = findCol cols n := by
  unfold findCol
  rw [List.find?_filter]
  congr 1
  funext y
  by_cases e : fold y.name = n
  · simp [e, h]
  · simp [e]

/-- DROP COLUMN of other columns. -/
theorem dropColumns_group {ns : Str → Prop} {n : Str} {cs : List Column} {db db' : Db V} {T : Tbl V}
    (hT : db (fold n) = some T) (hns : ∀ m, ns m → (findCol T.cols m).isSome)
    (hc : ∀ c ∈ cs, ¬ ns (fold c.columnName))
    (h : run w fk db (cs.map fun c => .dropColumn (nm n) c.columnName) = some db') :
    ∃ T', db' = db.put (fold n) (some T') ∧ Stays T T' ns ∧ ∀ f ∈ T'.fkeys, f ∈ T.fkeys := by
  induction cs generalizing db T with
  | nil => cases h; exact ⟨T, by rw [← hT, put_same], .refl hns, fun _ hf => hf⟩
  | cons c cs ih =>
    obtain ⟨d, h1, h2⟩ := run_cons h
    have h1 := exec_effect h1
    simp only [effect, key_nm, hT] at h1
    split at h1
    · cases h1
    split at h1
    · cases h1
    cases h1
    have hfind : ∀ m, ns m →
        findCol (T.cols.filter fun y => fold y.name ≠ fold c.columnName) m = findCol T.cols m :=
      fun m hm => findCol_filter fun e => hc c (by simp) (e ▸ hm)
    obtain ⟨T', e, hs, hf⟩ := ih (T := { T with
      cols := T.cols.filter fun y => fold y.name ≠ fold c.columnName }) (put_self _ _ _)
      (fun m hm => by
        show (findCol (T.cols.filter _) m).isSome = true
        rw [hfind m hm]; exact hns m hm)
      (fun x hx => hc x (by simp [hx])) h2
    refine ⟨T', by rw [e, put_put], ?_, ?_⟩
    · refine Stays.trans ⟨id, by simp, fun m hm => ⟨?_, fun _ => rfl⟩⟩ hs
      show (findCol (T.cols.filter _) m).isSome = true
      rw [hfind m hm]; exact hns m hm
    · intro f hf'
      have := hf f hf'
      unfold Tbl.fkeys at this ⊢
      rcases List.mem_append.1 this with h | h
      · obtain ⟨x, hx, h⟩ := List.mem_filterMap.1 h
        exact List.mem_append_left _ (List.mem_filterMap.2 ⟨x, (List.mem_filter.1 hx).1, h⟩)
      · exact List.mem_append_right _ h

/-- ADD COLUMN. -/
theorem addColumns_group {ns : Str → Prop} {n : Str} {cs : List Column} {db db' : Db V} {T : Tbl V}
    (hT : db (fold n) = some T) (hns : ∀ m, ns m → (findCol T.cols m).isSome)
    (h : run w fk db (cs.map fun c => .addColumn (nm n) (colOf .sqlite [] true c)) = some db') :
    ∃ T', db' = db.put (fold n) (some T') ∧ Stays T T' ns ∧
      ∀ f ∈ T'.fkeys, f ∈ T.fkeys ∨ ∃ c ∈ cs, refOf c = some f.2 := by
  induction cs generalizing db T with
  | nil => cases h; exact ⟨T, by rw [← hT, put_same], .refl hns, fun _ hf => Or.inl hf⟩
  | cons c cs ih =>
    obtain ⟨d, h1, h2⟩ := run_cons h
    have h1 := exec_effect h1
    simp only [effect, key_nm, hT] at h1
    split at h1
    · cases h1
    rename_i hno
    cases h1
    have hno : findCol T.cols (fold (colOf .sqlite [] true c).name) = none := by
      cases e : findCol T.cols (fold (colOf .sqlite [] true c).name) with
      | none => rfl
      | some x => exact absurd (Or.inl (by rw [e]; rfl)) hno
    have hfind : ∀ m, ns m → (findCol (T.cols ++ [colOf .sqlite [] true c]) m).isSome = true := by
      intro m hm
      unfold findCol
      rw [List.find?_append]
      have := hns m hm
      unfold findCol at this
      cases e : T.cols.find? (fun c => fold c.name == m) with
      | none => rw [e] at this; cases this
      | some x => rfl
    obtain ⟨T', e, hs, hf⟩ := ih (put_self _ _ _) hfind h2
    refine ⟨T', by rw [e, put_put], ?_, ?_⟩
    · refine Stays.trans ⟨_, rfl, fun m hm => ⟨hfind m hm, fun r => ?_⟩⟩ hs
      refine if_neg fun e => ?_
      have := hns m hm
      rw [e, hno] at this
      cases this
    · intro f hf'
      rcases hf f hf' with h | ⟨x, hx, h⟩
      · unfold Tbl.fkeys at h ⊢
        rcases List.mem_append.1 h with h | h
        · obtain ⟨x, hx, h⟩ := List.mem_filterMap.1 h
          rcases List.mem_append.1 hx with hx | hx
          · exact Or.inl (List.mem_append_left _ (List.mem_filterMap.2 ⟨x, hx, h⟩))
          · rw [List.mem_singleton] at hx
            subst hx
            refine Or.inr ⟨c, by simp, ?_⟩
            simp only [colOf, if_true] at h
            cases e : refOf c with
            | none => rw [e] at h; cases h
            | some r => rw [e] at h; cases h; rfl
        · exact Or.inl (List.mem_append_right _ h)
      · exact Or.inr ⟨x, by simp [hx], h⟩

/-- The differences of two tables: what the migration needs to know. -/
structure Diffed (a : AlterTable) : Prop where
  dropColumns : ∀ c ∈ a.dropColumns, c ∈ a.srcTable.columns ∧
    ∀ x ∈ liveColumns a.destTable, x.columnName ≠ c.columnName
  addColumns : ∀ c ∈ a.addColumns, c ∈ liveColumns a.destTable

theorem nodup_inj {α β : Type} {f : α → β} {xs : List α} (h : (xs.map f).Nodup) {x y : α}
    (hx : x ∈ xs) (hy : y ∈ xs) (e : f x = f y) : x = y := by
  induction xs with
  | nil => cases hx
  | cons a xs ih =>
    rw [List.map_cons, List.nodup_cons] at h
    rcases List.mem_cons.1 hx with hx | hx <;> rcases List.mem_cons.1 hy with hy | hy
    · rw [hx, hy]
    · rw [hx] at e; exact absurd (List.mem_map.2 ⟨y, hy, e.symm⟩) h.1
    · rw [hy] at e; exact absurd (List.mem_map.2 ⟨x, hx, e⟩) h.1
    · exact ih h.2 hx hy

/-- A table that is changed in place. -/
theorem inPlace_group {R : Str → Prop} {a : AlterTable} {db db' : Db V} {T : Tbl V}
    (hT : db (fold a.destTable.tableName) = some T) (hD : Diffed a) (hs : Described T a.srcTable)
    (hd : fk = true → ∀ n, R n → ¬ References a.destTable n)
    (h : run w fk db (inPlaceOf a) = some db') :
    ∃ T', db' = db.put (fold a.destTable.tableName) (some T') ∧
      Kept w T T' (Common a.srcTable a.destTable) ∧
      (fk = true → ∀ f ∈ T'.fkeys, R (key f.2.table) → f ∈ T.fkeys) := by
  unfold inPlaceOf at h
  obtain ⟨d3, h, hi⟩ := run_split h
  have hi := run_idle (idle_indexes _) hi
  subst hi
  obtain ⟨d2, h, h3⟩ := run_split h
  obtain ⟨d1, h, h2⟩ := run_split h
  have hi := run_idle (by
    intro st hst
    obtain ⟨x, -, rfl⟩ := List.mem_map.1 hst
    rfl) h
  subst hi
  have hns : ∀ m, (∃ n, Common a.srcTable a.destTable n ∧ m = fold n) →
      (findCol T.cols m).isSome := by
    rintro m ⟨n, ⟨⟨c, hc, rfl⟩, -⟩, rfl⟩
    exact hs.columns c hc
  obtain ⟨T1, rfl, s1, f1⟩ := dropColumns_group
    (ns := fun m => ∃ n, Common a.srcTable a.destTable n ∧ m = fold n) hT hns
    (by
      rintro c hc ⟨n, ⟨⟨x, hx, rfl⟩, y, hy, hyn, -⟩, e⟩
      have := hD.dropColumns c hc
      have := nodup_inj hs.names this.1 hx e
      subst this
      exact (hD.dropColumns _ hc).2 y hy hyn) h2
  have hc1 : ∀ m, (∃ n, Common a.srcTable a.destTable n ∧ m = fold n) →
      (findCol T1.cols m).isSome := by
    obtain ⟨_, -, hc⟩ := s1
    exact fun m hm => (hc m hm).1
  obtain ⟨T2, rfl, s2, f2⟩ := addColumns_group
    (ns := fun m => ∃ n, Common a.srcTable a.destTable n ∧ m = fold n) (put_self _ _ _)
    hc1 h3
  refine ⟨T2, put_put _ _ _ _, ?_, ?_⟩
  · obtain ⟨f, e, hf⟩ := s1.trans s2
    refine ⟨f, T.rows, .refl _, e, fun n hn => ?_⟩
    obtain ⟨hsome, hv⟩ := hf (fold n) ⟨n, hn, rfl⟩
    obtain ⟨c, hc⟩ := Option.isSome_iff_exists.1 hsome
    exact ⟨c, hc, fun r _ => Or.inl (hv r)⟩
  · intro hk f hf hr
    rcases f2 f hf with h | ⟨c, hc, he⟩
    · exact f1 f h
    · exact absurd (Or.inr ⟨c, hD.addColumns c hc, f.2, he, rfl⟩) (hd hk _ hr)

/-! ## All changes -/

/-- New tables. -/
theorem creates_group {R : Str → Prop} {ts : List Table} {db db' : Db V}
    (hI : fk = true → Inv R db) (hd : fk = true → ∀ t ∈ ts, ∀ n, R n → ¬ References t n)
    (h : run w fk db (ts.flatMap createOf) = some db') :
    (fk = true → Inv R db') ∧ ∀ k T, db k = some T → db' k = some T := by
  induction ts generalizing db with
  | nil => cases h; exact ⟨hI, fun _ _ h => h⟩
  | cons t ts ih =>
    rw [List.flatMap_cons] at h
    obtain ⟨d1, h1, h2⟩ := run_split h
    unfold createOf at h1
    obtain ⟨d0, h0, h1⟩ := run_cons h1
    have h1 := run_idle (idle_indexes _) h1
    subst h1
    obtain ⟨e0, rfl⟩ := create_effect h0
    obtain ⟨h3, h4⟩ := ih (fun hk => (hI hk).put_free _ _ fun f hf hr =>
      hd hk t (by simp) _ hr (created_references t [] f hf))
      (fun hk x hx => hd hk x (by simp [hx])) h2
    refine ⟨h3, fun k T hT => h4 k T ?_⟩
    rw [put_ne _ _ (fun e => by rw [e, e0] at hT; cases hT)]
    exact hT

/-- Dropped tables. -/
theorem drops_group {R : Str → Prop} {ts : List Table} {db db' : Db V}
    (hI : fk = true → Inv R db) (hR : ∀ t ∈ ts, R (fold t.tableName))
    (h : run w fk db (ts.map fun t => .dropTable (nm t.tableName)) = some db') :
    (fk = true → Inv R db') ∧ ∀ k, (∀ t ∈ ts, fold t.tableName ≠ k) → db' k = db k := by
  induction ts generalizing db with
  | nil => cases h; exact ⟨hI, fun _ _ => rfl⟩
  | cons t ts ih =>
    obtain ⟨d0, h0, h1⟩ := run_cons h
    obtain ⟨-, rfl⟩ := drop_effect (n := nm t.tableName) hI (hR t (by simp)) h0
    obtain ⟨h3, h4⟩ := ih (fun hk => (hI hk).remove _) (fun x hx => hR x (by simp [hx])) h1
    refine ⟨h3, fun k hk => ?_⟩
    rw [h4 k fun x hx => hk x (by simp [hx]), key_nm,
      put_ne _ _ (fun e => hk t (by simp) e.symm)]

/-- One changed table. -/
theorem change_group {R : Str → Prop} {a : AlterTable} {db db' : Db V} {T : Tbl V}
    (hI : fk = true → Inv R db)
    (hR : copies a = some true → R (fold a.destTable.tableName) ∧
      R (fold (a.destTable.tableName ++ b!"_new")))
    (hT : db (fold a.destTable.tableName) = some T) (hD : Diffed a) (hs : Described T a.srcTable)
    (hd : fk = true → ∀ n, R n → ¬ References a.destTable n)
    (h : run w fk db (changeOf a) = some db') :
    ∃ T', db' = db.put (fold a.destTable.tableName) (some T') ∧
      Kept w T T' (Common a.srcTable a.destTable) ∧ (fk = true → Inv R db') := by
  unfold changeOf at h
  split at h
  · rename_i hc
    obtain ⟨T0, T', e0, -, e, hkept, hfree⟩ := rebuild_group hI (hR hc).1 (hR hc).2 hd h
    rw [hT] at e0
    cases e0
    exact ⟨T', e, hkept, fun hk => e ▸ (hI hk).put_free _ _ (hfree hk)⟩
  · obtain ⟨T', e, hkept, hf⟩ := inPlace_group hT hD hs hd h
    exact ⟨T', e, hkept, fun hk => e ▸ (hI hk).put _ _ fun f hf' hr =>
      hI hk _ _ f hT (hf hk f hf' hr) hr⟩

theorem changes_group {R : Str → Prop} {as : List AlterTable} {db db' : Db V}
    (hI : fk = true → Inv R db)
    (hR : ∀ a ∈ as, copies a = some true → R (fold a.destTable.tableName) ∧
      R (fold (a.destTable.tableName ++ b!"_new")))
    (hT : ∀ a ∈ as, ∃ T, db (fold a.destTable.tableName) = some T ∧ Described T a.srcTable)
    (hn : (as.map fun a => fold a.destTable.tableName).Nodup) (hD : ∀ a ∈ as, Diffed a)
    (hd : fk = true → ∀ a ∈ as, ∀ n, R n → ¬ References a.destTable n)
    (h : run w fk db (as.flatMap changeOf) = some db') :
    (∀ k, (∀ a ∈ as, fold a.destTable.tableName ≠ k) → db' k = db k) ∧
    ∀ a ∈ as, ∀ T, db (fold a.destTable.tableName) = some T →
      ∃ T', db' (fold a.destTable.tableName) = some T' ∧
        Kept w T T' (Common a.srcTable a.destTable) := by
  induction as generalizing db with
  | nil => cases h; exact ⟨fun _ _ => rfl, fun _ h => by cases h⟩
  | cons a as ih =>
    rw [List.flatMap_cons] at h
    obtain ⟨d1, h1, h2⟩ := run_split h
    obtain ⟨T, hTa, hTd⟩ := hT a (by simp)
    obtain ⟨T', e, hkept, hI'⟩ := change_group hI (hR a (by simp)) hTa (hD a (by simp)) hTd
      (fun hk => hd hk a (by simp)) h1
    rw [List.map_cons, List.nodup_cons] at hn
    have hne : ∀ b ∈ as, fold b.destTable.tableName ≠ fold a.destTable.tableName :=
      fun b hb e => hn.1 (List.mem_map.2 ⟨b, hb, e⟩)
    obtain ⟨h3, h4⟩ := ih hI' (fun b hb => hR b (by simp [hb])) (fun b hb => by
        obtain ⟨S, hS⟩ := hT b (by simp [hb])
        exact ⟨S, by rw [e, put_ne _ _ (hne b hb)]; exact hS.1, hS.2⟩) hn.2
      (fun b hb => hD b (by simp [hb])) (fun hk b hb => hd hk b (by simp [hb])) h2
    refine ⟨fun k hk => ?_, fun b hb S hS => ?_⟩
    · rw [h3 k fun b hb => hk b (by simp [hb]), e, put_ne _ _ fun e => hk a (by simp) e.symm]
    · rcases List.mem_cons.1 hb with hb | hb
      · subst hb
        rw [hTa] at hS
        cases hS
        refine ⟨T', ?_, hkept⟩
        rw [h3 _ hne, e, put_self]
      · exact h4 b hb S (by rw [e, put_ne _ _ (hne b hb)]; exact hS)

/-- The changes of a migration. -/
theorem plan_keeps_rows (evs : List Ev) (copy : Bool) {db db' : Db V}
    (hI : fk = true → Unreferenced (planOf copy evs) db)
    (hd : fk = true → ∀ n, Doomed (planOf copy evs) n →
      (∀ t ∈ evs.filterMap Ev.createTable?, ¬ References t n) ∧
      ∀ a ∈ evs.filterMap Ev.alter?, ¬ References a.destTable n)
    (hT : ∀ a ∈ evs.filterMap Ev.alter?, ∃ T, db (fold a.destTable.tableName) = some T ∧
      Described T a.srcTable)
    (hn : ((evs.filterMap Ev.alter?).map fun a => fold a.destTable.tableName).Nodup)
    (hnd : ∀ a ∈ evs.filterMap Ev.alter?, ∀ t ∈ evs.filterMap Ev.dropTable?,
      fold t.tableName ≠ fold a.destTable.tableName)
    (hD : ∀ a ∈ evs.filterMap Ev.alter?, Diffed a)
    (h : run w fk db (planOf copy evs) = some db') :
    (∀ k T, db k = some T → (∀ t ∈ evs.filterMap Ev.dropTable?, fold t.tableName ≠ k) →
      (∀ a ∈ evs.filterMap Ev.alter?, fold a.destTable.tableName ≠ k) → db' k = some T) ∧
    ∀ a ∈ evs.filterMap Ev.alter?, ∀ T, db (fold a.destTable.tableName) = some T →
      ∃ T', db' (fold a.destTable.tableName) = some T' ∧
        Kept w T T' (Common a.srcTable a.destTable) := by
  have hRd : ∀ t ∈ evs.filterMap Ev.dropTable?, Doomed (planOf copy evs) (fold t.tableName) :=
    fun t ht => ⟨nm t.tableName, rfl, Or.inl (by
      unfold planOf
      refine List.mem_append_left _ (List.mem_append_left _ (List.mem_append_left _
        (List.mem_append_right _ ?_)))
      exact List.mem_map.2 ⟨t, ht, rfl⟩)⟩
  have hRa : ∀ a ∈ evs.filterMap Ev.alter?, copies a = some true →
      Doomed (planOf copy evs) (fold a.destTable.tableName) ∧
      Doomed (planOf copy evs) (fold (a.destTable.tableName ++ b!"_new")) := by
    intro a ha hc
    have hm : ∀ st, st ∈ changeOf a → st ∈ planOf copy evs := by
      intro st hst
      unfold planOf
      exact List.mem_append_left _ (List.mem_append_right _ (List.mem_flatMap.2 ⟨a, ha, hst⟩))
    refine ⟨⟨nm a.destTable.tableName, rfl, Or.inl (hm _ ?_)⟩,
      ⟨nm (a.destTable.tableName ++ b!"_new"), rfl, Or.inr ⟨a.destTable.tableName, hm _ ?_⟩⟩⟩ <;>
    · rw [changeOf, if_pos hc, rebuildOf]
      simp
  unfold planOf at h
  obtain ⟨d4, h, hi⟩ := run_split h
  have idlePragma : ∀ v, ∀ st ∈ pragmaOf copy v, idle st = true := by
    intro v st hst
    unfold pragmaOf at hst
    split at hst
    · rw [List.mem_singleton] at hst; subst hst; rfl
    · cases hst
  have hi := run_idle (idlePragma _) hi
  subst hi
  obtain ⟨d3, h, h4⟩ := run_split h
  obtain ⟨d2, h, h3⟩ := run_split h
  obtain ⟨d1, h, h2⟩ := run_split h
  have hi := run_idle (idlePragma _) h
  subst hi
  obtain ⟨i1, k1⟩ := drops_group (R := Doomed (planOf copy evs)) hI hRd h2
  obtain ⟨i2, k2⟩ := creates_group i1 (fun hk t ht n hn => (hd hk n hn).1 t ht) h3
  have hmid : ∀ a ∈ evs.filterMap Ev.alter?, ∀ T, d1 (fold a.destTable.tableName) = some T →
      d3 (fold a.destTable.tableName) = some T := by
    intro a ha T hT
    exact k2 _ _ (by rw [k1 _ (hnd a ha)]; exact hT)
  obtain ⟨k3, k4⟩ := changes_group i2 hRa (fun a ha => by
      obtain ⟨T, h1, h2⟩ := hT a ha
      exact ⟨T, hmid a ha T h1, h2⟩) hn hD (fun hk a ha n hn => (hd hk n hn).2 a ha) h4
  refine ⟨fun k T hT h1 h2 => ?_, fun a ha T hT => k4 a ha T (hmid a ha T hT)⟩
  rw [k3 k h2]
  exact k2 k T (by rw [k1 k h1]; exact hT)

/-! ## The migration of two catalogs -/

theorem named_name (c : Constraint) : (sqliteNameConstraint c).ignore = c.ignore ∧
    (sqliteNameConstraint c).constraintType = c.constraintType ∧
    (sqliteNameConstraint c).referencesTable = c.referencesTable := by
  unfold sqliteNameConstraint
  split <;> exact ⟨rfl, rfl, rfl⟩

theorem references_name {t : Table} {n : Str} (h : References (nameTable t) n) :
    References t n := by
  rcases h with ⟨c, hc, h1, h2⟩ | ⟨c, hc, h⟩
  · refine Or.inl ?_
    unfold liveConstraints nameTable at hc
    split at hc
    · exact ⟨c, hc, h1, h2⟩
    · obtain ⟨hc, hl⟩ := List.mem_filter.1 hc
      obtain ⟨x, hx, rfl⟩ := List.mem_map.1 hc
      obtain ⟨e1, e2, e3⟩ := named_name x
      refine ⟨x, List.mem_filter.2 ⟨hx, by rw [← e1]; exact hl⟩, e2 ▸ h1, e3 ▸ h2⟩
  · refine Or.inr ⟨c, ?_, h⟩
    rw [(live_name t).1] at hc
    exact hc

theorem common_name {x t : Table} {n : Str} (h : Common x t n) :
    Common (nameTable x) (nameTable t) n := by
  unfold Common at h ⊢
  rw [(nameTable_fields x).2.2.1, (live_name t).1]
  exact h

section
variable {src dest : Catalog} {s d : Schema} (hs : SqliteOk src s) (hd : SqliteOk dest d)
  (drop : Bool)
include hs hd

/-- What is known of a table that is altered. -/
theorem alter_facts {a : AlterTable} (ha : a ∈ (sqliteEvents src dest drop).filterMap Ev.alter?) :
    ∃ p ∈ sqlitePairs s d, a.srcTable = nameTable p.1 ∧ a.destTable = nameTable p.2 ∧ Diffed a ∧
      (∀ x ∈ a.dropIndexes, x ∈ a.srcTable.indexes) ∧
      ∀ x ∈ a.createIndexes, x ∈ a.destTable.indexes := by
  have he : sqliteEvents src dest drop = diffEvents .sqlite src dest drop := rfl
  rw [he, sqlite_events hs hd, sqlite_alters_eq hs.ok hd.ok hs.mem hd.mem] at ha
  obtain ⟨p, hp, ha⟩ := List.mem_flatMap.1 ha
  have hp' := hp
  rw [sqlitePairs_name] at hp'
  obtain ⟨q, hq, e⟩ := List.mem_map.1 hp'
  simp only [sqlitePairs, List.mem_filterMap, Option.map_eq_some_iff] at hp
  obtain ⟨t, ht, x, hx, hxt⟩ := hp
  have h1 : InCatalog (sqliteNameConstraints src) p.1 := by
    rw [← hxt]
    exact ⟨_, hs.mem, (List.mem_filter.1 (List.mem_of_find?_eq_some hx)).1⟩
  have h2 : InCatalog (sqliteNameConstraints dest) p.2 := by
    rw [← hxt]
    exact ⟨_, hd.mem, (List.mem_filter.1 ht).1⟩
  have m1 := missingColumns_eq hs.ok h1 p.2
  have m2 := surplusColumns_eq hd.ok h2 p.1
  have m3 := missingIndexes_eq hs.ok h1 p.2
  have m4 := surplusIndexes_eq hd.ok h2 p.1
  refine ⟨q, hq, ?_⟩
  have hfull : Diffed (sqliteFullAlter (newCatalogCache (sqliteNameConstraints src))
      (newCatalogCache (sqliteNameConstraints dest)) p.1 p.2) := by
    refine ⟨fun c hc => ?_, fun c hc => ?_⟩
    · simp only [sqliteFullAlter] at hc ⊢
      rw [m2] at hc
      obtain ⟨hc, hno⟩ := List.mem_filter.1 hc
      refine ⟨(List.mem_filter.1 hc).1, fun y hy e => ?_⟩
      simp only [hasColumn, Bool.not_eq_true', List.any_eq_false, beq_iff_eq] at hno
      exact hno y hy e
    · simp only [sqliteFullAlter] at hc ⊢
      rw [m1] at hc
      exact (List.mem_filter.1 hc).1
  have hfi : (∀ x ∈ (sqliteFullAlter (newCatalogCache (sqliteNameConstraints src))
      (newCatalogCache (sqliteNameConstraints dest)) p.1 p.2).dropIndexes, x ∈
      (sqliteFullAlter (newCatalogCache (sqliteNameConstraints src))
      (newCatalogCache (sqliteNameConstraints dest)) p.1 p.2).srcTable.indexes) ∧
      ∀ x ∈ (sqliteFullAlter (newCatalogCache (sqliteNameConstraints src))
      (newCatalogCache (sqliteNameConstraints dest)) p.1 p.2).createIndexes, x ∈
      (sqliteFullAlter (newCatalogCache (sqliteNameConstraints src))
      (newCatalogCache (sqliteNameConstraints dest)) p.1 p.2).destTable.indexes := by
    refine ⟨fun x hx => ?_, fun x hx => ?_⟩
    · simp only [sqliteFullAlter] at hx
      rw [m4] at hx
      exact (List.mem_filter.1 (List.mem_filter.1 hx).1).1
    · simp only [sqliteFullAlter] at hx
      rw [m3] at hx
      exact (List.mem_filter.1 (List.mem_filter.1 hx).1).1
  have ep : p = (nameTable q.1, nameTable q.2) := e.symm
  have es : (sqliteFullAlter (newCatalogCache (sqliteNameConstraints src))
      (newCatalogCache (sqliteNameConstraints dest)) p.1 p.2).srcTable = nameTable q.1 := by
    rw [ep]; rfl
  have ed : (sqliteFullAlter (newCatalogCache (sqliteNameConstraints src))
      (newCatalogCache (sqliteNameConstraints dest)) p.1 p.2).destTable = nameTable q.2 := by
    rw [ep]; rfl
  generalize sqliteFullAlter (newCatalogCache (sqliteNameConstraints src))
      (newCatalogCache (sqliteNameConstraints dest)) p.1 p.2 = b at ha hfull hfi es ed
  unfold sqliteAlterEvents at ha
  split at ha
  · split at ha
    · simp only [List.filterMap_cons, Ev.alter?, List.filterMap_nil, List.mem_singleton] at ha
      subst ha
      exact ⟨es, ed, hfull, hfi.1, hfi.2⟩
    · split at ha
      · simp only [List.filterMap_cons, Ev.alter?, List.filterMap_nil, List.mem_singleton] at ha
        subst ha
        exact ⟨es, ed, ⟨fun _ h => (by cases h), hfull.addColumns⟩, fun _ h => (by cases h), hfi.2⟩
      · cases ha
  · cases ha

/-- What is known of a table that is created. -/
theorem create_facts {t : Table}
    (ht : t ∈ (sqliteEvents src dest drop).filterMap Ev.createTable?) :
    ∃ x ∈ sqliteTables d, t = nameTable x := by
  have he : sqliteEvents src dest drop = diffEvents .sqlite src dest drop := rfl
  rw [he, sqlite_events hs hd, sqliteSchemaEvents_eq hs.ok hd.ok hs.mem hd.mem] at ht
  obtain ⟨ev, hev, hc⟩ := List.mem_filterMap.1 ht
  rcases List.mem_append.1 hev with h | h
  · split at h
    · obtain ⟨x, -, rfl⟩ := List.mem_map.1 h; cases hc
    · cases h
  · obtain ⟨x, hx, h⟩ := List.mem_flatMap.1 h
    rw [sqliteTables_name] at hx
    obtain ⟨y, hy, rfl⟩ := List.mem_map.1 hx
    split at h
    · rw [List.mem_singleton] at h
      subst h
      cases hc
      exact ⟨y, hy, rfl⟩
    · rw [sqliteAlterEvents] at h
      grind [Ev.createTable?]

/-- What is known of a table that is dropped. -/
theorem drop_facts {t : Table}
    (ht : t ∈ (sqliteEvents src dest drop).filterMap Ev.dropTable?) :
    drop = true ∧ ∃ x ∈ sqliteTables s, schemaHas d x.tableName = false ∧ t = nameTable x := by
  have he : sqliteEvents src dest drop = diffEvents .sqlite src dest drop := rfl
  rw [he, sqlite_events hs hd, sqliteSchemaEvents_eq hs.ok hd.ok hs.mem hd.mem] at ht
  obtain ⟨ev, hev, hc⟩ := List.mem_filterMap.1 ht
  rcases List.mem_append.1 hev with h | h
  · split at h
    · rename_i hdr
      obtain ⟨x, hx, rfl⟩ := List.mem_map.1 h
      cases hc
      obtain ⟨hx, hno⟩ := List.mem_filter.1 hx
      rw [sqliteTables_name] at hx
      obtain ⟨y, hy, rfl⟩ := List.mem_map.1 hx
      rw [schemaHas_name, (nameTable_fields y).1] at hno
      exact ⟨hdr, y, hy, by simpa using hno, rfl⟩
    · cases h
  · obtain ⟨x, hx, h⟩ := List.mem_flatMap.1 h
    split at h
    · rw [List.mem_singleton] at h
      subst h
      cases hc
    · rw [sqliteAlterEvents] at h
      grind [Ev.dropTable?]

omit hs hd in
theorem sublist_flatMap {α β γ : Type} (f : α → List β) (g : β → γ) (k : α → γ)
    (h : ∀ a, f a = [] ∨ ∃ b, f a = [b] ∧ g b = k a) :
    ∀ xs : List α, ((xs.flatMap f).map g).Sublist (xs.map k)
  | [] => .slnil
  | a :: xs => by
    rw [List.flatMap_cons, List.map_append, List.map_cons]
    rcases h a with e | ⟨b, e, hb⟩
    · rw [e]; exact (sublist_flatMap f g k h xs).cons _
    · rw [e, List.map_singleton, hb]; exact (sublist_flatMap f g k h xs).cons_cons _

omit hs hd in
theorem pairs_sublist (s d : Schema) :
    ((sqlitePairs s d).map fun p => p.2).Sublist (sqliteTables d) := by
  unfold sqlitePairs
  induction sqliteTables d with
  | nil => exact .slnil
  | cons t ts ih =>
    rw [List.filterMap_cons]
    generalize List.find? _ _ = o
    cases o with
    | none => exact ih.cons _
    | some x => exact ih.cons_cons _

omit hs hd in
theorem mem_pairs {p : Table × Table} (h : p ∈ sqlitePairs s d) :
    p.1 ∈ s.tables.filter (fun x => !x.ignore) ∧ p.2 ∈ sqliteTables d ∧
      p.1.tableName = p.2.tableName := by
  simp only [sqlitePairs, List.mem_filterMap, Option.map_eq_some_iff] at h
  obtain ⟨t, ht, x, hx, rfl⟩ := h
  refine ⟨List.mem_of_find?_eq_some hx, ht, ?_⟩
  have := List.find?_some hx
  simpa using this

/-- No table is altered twice. -/
theorem alters_nodup (hn : ((sqliteTables d).map fun t => fold t.tableName).Nodup) :
    (((sqliteEvents src dest drop).filterMap Ev.alter?).map fun a =>
      fold a.destTable.tableName).Nodup := by
  have he : sqliteEvents src dest drop = diffEvents .sqlite src dest drop := rfl
  rw [he, sqlite_events hs hd, sqlite_alters_eq hs.ok hd.ok hs.mem hd.mem]
  refine List.Nodup.sublist (sublist_flatMap _ _ (fun p : Table × Table => fold p.2.tableName)
    (fun p => ?_) _) ?_
  · unfold sqliteAlterEvents
    split
    · split
      · exact Or.inr ⟨_, rfl, rfl⟩
      · split
        · exact Or.inr ⟨_, rfl, rfl⟩
        · exact Or.inl rfl
    · exact Or.inl rfl
  · rw [sqlitePairs_name, List.map_map]
    have : ((fun p : Table × Table => fold p.2.tableName) ∘ fun p : Table × Table =>
        (nameTable p.1, nameTable p.2)) = fun p => fold p.2.tableName := by
      funext p
      simp only [Function.comp, (nameTable_fields p.2).1]
    rw [this]
    have := (pairs_sublist s d).map (fun t => fold t.tableName)
    rw [List.map_map] at this
    exact hn.sublist this

end

/-- The two catalogs can be written and read: the condition of the migration theorem. -/
structure _root_.LiteSpec.Clear (s d : Schema) : Prop where
  /-- the tables of the destination, with the generated names of constraints -/
  writable : ∀ t ∈ sqliteTables d, Writable (nameTable t)
  readable : ∀ x ∈ s.tables, x.ignore = false → Readable x
  /-- two tables of the same name have a column in common -/
  common : ∀ p ∈ sqlitePairs s d, ∃ n, Copied p.1 p.2 n
  /-- names are different also without regard to case -/
  srcNames : ((s.tables.filter fun x => !x.ignore).map fun t => fold t.tableName).Nodup
  destNames : ((sqliteTables d).map fun t => fold t.tableName).Nodup

/-- C42, with the condition that no foreign key references a table that the script drops or
renames if SQLite enforces foreign keys: if all statements of the migration succeed, the rows of every
table that both catalogs have are kept, with the values of the columns that both have, and all other
tables are what they were, except for those that dropObjects drops.  The condition cannot be left
out: `rebuild_cascade_refuted`. -/
theorem sqlite_keeps_rows_partial {src dest : Catalog} {s d : Schema} (hs : SqliteOk src s)
    (hd : SqliteOk dest d) (drop : Bool) (hc : Clear s d) (pre : Str) (files : List Files.File)
    (hf : migration pre src dest drop = some files) :
    ∃ sts, LiteText.runScript (keywords .sqlite) [] (files.flatMap (·.2)) = some sts ∧
      ∀ (w : World V) (fk : Bool) (db db' : Db V),
        (∀ x ∈ s.tables, x.ignore = false →
          ∃ T, db (fold x.tableName) = some T ∧ Described T x) →
        (fk = true → Unreferenced sts db ∧
          ∀ t ∈ sqliteTables d, ∀ n, Doomed sts n → ¬ References t n) →
        run w fk db sts = some db' →
        (∀ p ∈ sqlitePairs s d, ∀ T, db (fold p.2.tableName) = some T →
          ∃ T', db' (fold p.2.tableName) = some T' ∧ Kept w T T' (Common p.1 p.2)) ∧
        ∀ k T, db k = some T → (∀ p ∈ sqlitePairs s d, fold p.2.tableName ≠ k) →
          (drop = true → ∀ x ∈ sqliteTables s, schemaHas d x.tableName = false →
            fold x.tableName ≠ k) → db' k = some T := by
  obtain ⟨text, ht, hfiles⟩ := Option.map_eq_some_iff.1 hf
  have hcontent : files.flatMap (·.2) = text := by
    rw [← hfiles]
    split
    · rename_i h; rw [h]; rfl
    · simp
  obtain ⟨copy, hcopy, -⟩ := Option.map_eq_some_iff.1 ht
  have hpair : ∀ a ∈ (sqliteEvents src dest drop).filterMap Ev.alter?, ∃ p ∈ sqlitePairs s d,
      a.srcTable = nameTable p.1 ∧ a.destTable = nameTable p.2 ∧ Diffed a ∧
      (∀ x ∈ a.dropIndexes, x ∈ a.srcTable.indexes) ∧
      ∀ x ∈ a.createIndexes, x ∈ a.destTable.indexes := fun a ha => alter_facts hs hd drop ha
  have hlive : ∀ {x : Table}, x ∈ s.tables.filter (fun x => !x.ignore) →
      x ∈ s.tables ∧ x.ignore = false := fun h => by simpa using List.mem_filter.1 h
  have hreadable : ∀ x : Table, Readable x → Readable (nameTable x) := by
    intro x h
    unfold nameTable
    split
    · exact h
    · exact ⟨h.name, h.columns, h.indexes, h.triggers⟩
  obtain ⟨text', ht', hread⟩ := sqlite_reads_back (sqliteEvents src dest drop) copy hcopy
    (fun t h => by
      obtain ⟨-, x, hx, -, rfl⟩ := drop_facts hs hd drop h
      rw [(nameTable_fields x).1]
      have := List.mem_filter.1 hx
      simp only [Bool.and_eq_true, Bool.not_eq_true'] at this
      exact (hc.readable x this.1 this.2.1).name)
    (fun t h => by
      obtain ⟨x, hx, rfl⟩ := create_facts hs hd drop h
      exact hc.writable x hx)
    (fun a ha => by
      obtain ⟨p, hp, e1, e2, hD, h1, h2⟩ := hpair a ha
      obtain ⟨m1, m2, -⟩ := mem_pairs hp
      refine ⟨e2 ▸ hc.writable _ m2, e1 ▸ hreadable _ (hc.readable _ (hlive m1).1 (hlive m1).2),
        ?_, h1, fun c hc => (hD.dropColumns c hc).1, hD.addColumns, h2⟩
      obtain ⟨n, hn⟩ := hc.common p hp
      refine ⟨n, ?_⟩
      unfold Copied at hn ⊢
      rw [e1, e2, (nameTable_fields p.1).2.2.1, (nameTable_fields p.2).2.2.1]
      exact hn)
  rw [ht] at ht'
  cases ht'
  rw [hcontent]
  refine ⟨_, hread, fun w fk db db' hdb hk hrun => ?_⟩
  have hkeep := plan_keeps_rows (sqliteEvents src dest drop) copy (fun h => (hk h).1)
    (fun h n hn => ⟨fun t ht href => by
      obtain ⟨x, hx, rfl⟩ := create_facts hs hd drop ht
      exact (hk h).2 x hx n hn (references_name href), fun a ha href => by
      obtain ⟨p, hp, -, e2, -⟩ := hpair a ha
      exact (hk h).2 p.2 (mem_pairs hp).2.1 n hn (references_name (e2 ▸ href))⟩)
    (fun a ha => by
      obtain ⟨p, hp, e1, e2, -⟩ := hpair a ha
      obtain ⟨m1, m2, m3⟩ := mem_pairs hp
      obtain ⟨T, h1, h2⟩ := hdb p.1 (hlive m1).1 (hlive m1).2
      refine ⟨T, ?_, ?_⟩
      · rw [e2, (nameTable_fields p.2).1, ← m3]; exact h1
      · rw [e1]
        exact ⟨by rw [(nameTable_fields p.1).2.2.1]; exact h2.columns,
          by rw [(nameTable_fields p.1).2.2.1]; exact h2.names⟩)
    (alters_nodup hs hd drop hc.destNames)
    (fun a ha t ht e => by
      obtain ⟨p, hp, -, e2, -⟩ := hpair a ha
      obtain ⟨m1, m2, m3⟩ := mem_pairs hp
      obtain ⟨-, x, hx, hno, rfl⟩ := drop_facts hs hd drop ht
      rw [(nameTable_fields x).1, e2, (nameTable_fields p.2).1, ← m3] at e
      have hx' := List.mem_filter.1 hx
      simp only [Bool.and_eq_true, Bool.not_eq_true'] at hx'
      have := nodup_inj hc.srcNames (List.mem_filter.2 ⟨hx'.1, by rw [hx'.2.1]; rfl⟩) m1 e
      subst this
      have m2 := List.mem_filter.1 m2
      simp only [Bool.and_eq_true, Bool.not_eq_true'] at m2
      simp only [schemaHas, List.any_eq_false] at hno
      exact hno p.2 m2.1 (by simp [m2.2.1, m3]))
    (fun a ha => by
      obtain ⟨p, -, -, -, hD, -⟩ := hpair a ha
      exact hD) hrun
  have hsame : ∀ p ∈ sqlitePairs s d, ∀ T, db (fold p.2.tableName) = some T →
      (∀ a ∈ (sqliteEvents src dest drop).filterMap Ev.alter?,
        fold a.destTable.tableName ≠ fold p.2.tableName) →
      db' (fold p.2.tableName) = some T := by
    intro p hp T hT hno
    refine hkeep.1 _ T hT (fun t ht e => ?_) hno
    obtain ⟨m1, m2, m3⟩ := mem_pairs hp
    obtain ⟨-, x, hx, hno, rfl⟩ := drop_facts hs hd drop ht
    rw [(nameTable_fields x).1, ← m3] at e
    have hx' := List.mem_filter.1 hx
    simp only [Bool.and_eq_true, Bool.not_eq_true'] at hx'
    have := nodup_inj hc.srcNames (List.mem_filter.2 ⟨hx'.1, by rw [hx'.2.1]; rfl⟩) m1 e
    subst this
    have m2 := List.mem_filter.1 m2
    simp only [Bool.and_eq_true, Bool.not_eq_true'] at m2
    simp only [schemaHas, List.any_eq_false] at hno
    exact hno p.2 m2.1 (by simp [m2.2.1, m3])
  refine ⟨fun p hp T hT => ?_, fun k T hT h1 h2 => ?_⟩
  · by_cases hex : ∃ a ∈ (sqliteEvents src dest drop).filterMap Ev.alter?,
        fold a.destTable.tableName = fold p.2.tableName
    · obtain ⟨a, ha, e⟩ := hex
      obtain ⟨q, hq, e1, e2, -⟩ := hpair a ha
      have hpq : q = p := by
        rw [e2, (nameTable_fields q.2).1] at e
        have h2 := nodup_inj hc.destNames (mem_pairs hq).2.1 (mem_pairs hp).2.1 e
        have h1 := nodup_inj hc.srcNames (mem_pairs hq).1 (mem_pairs hp).1
          (by rw [(mem_pairs hq).2.2, (mem_pairs hp).2.2, h2])
        exact Prod.ext h1 h2
      subst hpq
      obtain ⟨T', hT', f, rs, hperm, hrows, hval⟩ := hkeep.2 a ha T (e ▸ hT)
      refine ⟨T', e ▸ hT', f, rs, hperm, hrows, fun n hn => hval n ?_⟩
      rw [e1, e2]
      exact common_name hn
    · have hno : ∀ a ∈ (sqliteEvents src dest drop).filterMap Ev.alter?,
          fold a.destTable.tableName ≠ fold p.2.tableName := fun a ha e => hex ⟨a, ha, e⟩
      refine ⟨T, hsame p hp T hT hno, id, T.rows, .refl _, by simp, fun n hn => ?_⟩
      obtain ⟨m1, m2, m3⟩ := mem_pairs hp
      obtain ⟨S, h1, h2⟩ := hdb p.1 (hlive m1).1 (hlive m1).2
      rw [m3, hT] at h1
      cases h1
      obtain ⟨⟨c, hcm, rfl⟩, -⟩ := hn
      obtain ⟨x, hx⟩ := Option.isSome_iff_exists.1 (h2.columns c hcm)
      exact ⟨x, hx, fun r _ => Or.inl rfl⟩
  · refine hkeep.1 k T hT (fun t ht e => ?_) (fun a ha e => ?_)
    · obtain ⟨hdr, x, hx, hno, rfl⟩ := drop_facts hs hd drop ht
      rw [(nameTable_fields x).1] at e
      exact h2 hdr x hx hno e
    · obtain ⟨p, hp, -, e2, -⟩ := hpair a ha
      rw [e2, (nameTable_fields p.2).1] at e
      exact h1 p hp e

end Sqddl.Sqlite
