import Verif.Lemmas.SqliteSchema
import Verif.Props.SqliteKeeps
import Verif.Props.Types

/-!
# A SQLite migration leads to the schema of the destination (C71)
-/

namespace Sqddl.Sqlite
open Go SqlSpec CatalogSpec Sqddl.Render Sqddl.Files LiteText
open LiteSpec (fold key findCol inCon colsOf consOf References)
open DdlText hiding Stmt readStmt runScript Stmt.resolve Rule ruleOf
open LiteSchema

variable {fk : Bool}

/-! ## Shapes -/

/-- The table that CREATE TABLE makes. -/
def made (t : Table) : Shape := ⟨colsOf (itemsOf t), consOf (itemsOf t)⟩

theorem free_of_fkeys {T : Shape} {n : Str}
    (h : ∀ f ∈ (LiteSpec.Tbl.mk (V := Unit) T.cols T.cons []).fkeys, key f.2.table ≠ n) :
    T.free n := by
  refine ⟨fun c hc r hr => ?_, fun c hc cols r hr => ?_⟩
  · refine h ([c.name], r) (List.mem_append_left _ (List.mem_filterMap.2 ⟨c, hc, ?_⟩))
    rw [hr]; rfl
  · refine h (cols, r) (List.mem_append_right _ (List.mem_filterMap.2 ⟨c, hc, ?_⟩))
    rw [hr]

theorem made_free {t : Table} {n : Str} (h : ¬ References t n) : (made t).free n :=
  free_of_fkeys fun f hf e => h (e ▸ created_references t [] f hf)

/-- No table references one of the names `R`. -/
def NoRef (R : Str → Prop) (db : Sch) : Prop :=
  ∀ u U, db.table u = some U → ∀ k, R k → U.free k

theorem noRef_put {R : Str → Prop} {db db' : Sch} {k : Str} {T : Shape} {f : Str → Option Idx}
    (h : NoRef R db) (hT : ∀ n, R n → T.free n)
    (hv : view db' = put (view db) k (some (T, f))) : NoRef R db' := by
  intro u U hu n hn
  have h1 := congrFun hv u
  by_cases e : u = k
  · subst e
    rw [put_self] at h1
    have := (view_some.1 h1).1
    rw [hu] at this
    cases this
    exact hT n hn
  · rw [put_ne _ _ e] at h1
    have h2 : view db' u = some (U, on db' u) := view_some.2 ⟨hu, rfl⟩
    rw [h1] at h2
    exact h u U (view_some.1 h2).1 n hn

theorem noRef_remove {R : Str → Prop} {db db' : Sch} {k : Str}
    (h : NoRef R db) (hv : view db' = put (view db) k none) : NoRef R db' := by
  intro u U hu n hn
  have h1 := congrFun hv u
  have h2 : view db' u = some (U, on db' u) := view_some.2 ⟨hu, rfl⟩
  by_cases e : u = k
  · subst e
    rw [put_self, h2] at h1
    cases h1
  · rw [put_ne _ _ e] at h1
    rw [h1] at h2
    exact h u U (view_some.1 h2).1 n hn

/-! ## Indexes -/

theorem idx_table {x : Index} (h : x.tableSchema = []) :
    (idxOfIndex x).table = some (nm x.tableName) := by
  simp [idxOfIndex, idxOf, Idx.resolve, h, full, nm]

theorem idx_name (x : Index) : (idxOfIndex x).name = x.indexName := rfl

/-- CREATE INDEX for several indexes of a table. -/
theorem indexes_view {k : Str} {xs : List Index} {db db' : Sch} {T : Shape} {f : Str → Option Idx}
    (hx : ∀ x ∈ xs, x.tableSchema = [] ∧ fold x.tableName = k) (hk : view db k = some (T, f))
    (h : run fk db (xs.map indexOf) = some db') :
    ∃ f', view db' = put (view db) k (some (T, f')) ∧
      ∀ n x, f' n = some x ↔ f n = some x ∨ ∃ y ∈ xs, fold y.indexName = n ∧ idxOfIndex y = x := by
  induction xs generalizing db f with
  | nil => cases h; exact ⟨f, by rw [← hk, put_same], fun n x => by simp⟩
  | cons y xs ih =>
    obtain ⟨d, h1, h2⟩ := run_cons h
    obtain ⟨hy1, hy2⟩ := hx y (by simp)
    obtain ⟨T', g, e1, e0, e2⟩ := index_view (idx_table hy1) h1
    rw [key_nm, hy2] at e1 e2
    rw [hk] at e1
    cases e1
    obtain ⟨f', e3, e4⟩ := ih (fun x hx' => hx x (by simp [hx'])) (by rw [e2, put_self]) h2
    refine ⟨f', by rw [e3, e2, put_put], fun n x => ?_⟩
    rw [e4]
    rw [idx_name] at e0 ⊢
    by_cases e : n = fold y.indexName
    · subst e
      rw [put_self, e0]
      constructor
      · rintro (h | ⟨z, hz, h⟩)
        · exact Or.inr ⟨y, by simp, rfl, by simpa using h⟩
        · exact Or.inr ⟨z, by simp [hz], h⟩
      · rintro (h | ⟨z, hz, h⟩)
        · cases h
        · rcases List.mem_cons.1 hz with hz | hz
          · exact Or.inl (by rw [← h.2, hz])
          · exact Or.inr ⟨z, hz, h⟩
    · rw [put_ne _ _ e]
      constructor
      · rintro (h | ⟨z, hz, h⟩)
        · exact Or.inl h
        · exact Or.inr ⟨z, by simp [hz], h⟩
      · rintro (h | ⟨z, hz, h⟩)
        · exact Or.inl h
        · rcases List.mem_cons.1 hz with hz | hz
          · exact absurd (by rw [← h.1, hz]) e
          · exact Or.inr ⟨z, hz, h⟩

/-- DROP INDEX for several indexes of a table. -/
theorem dropIndexes_view {k : Str} {xs : List Index} {db db' : Sch} {T : Shape}
    {f : Str → Option Idx} (hk : view db k = some (T, f))
    (hx : ∀ x ∈ xs, ∃ i, f (fold x.indexName) = some i)
    (hn : (xs.map fun x => fold x.indexName).Nodup)
    (h : run fk db (xs.map fun x => .dropIndex (nm x.indexName)) = some db') :
    ∃ f', view db' = put (view db) k (some (T, f')) ∧
      ∀ n x, f' n = some x ↔ f n = some x ∧ ∀ y ∈ xs, fold y.indexName ≠ n := by
  induction xs generalizing db f with
  | nil => cases h; exact ⟨f, by rw [← hk, put_same], fun n x => by simp⟩
  | cons y xs ih =>
    obtain ⟨d, h1, h2⟩ := run_cons h
    obtain ⟨i, hi⟩ := hx y (by simp)
    have e2 := dropIndex_view (n := nm y.indexName) hk (by rw [key_nm]; exact hi) h1
    rw [key_nm] at e2
    rw [List.map_cons, List.nodup_cons] at hn
    obtain ⟨f', e3, e4⟩ := ih (db := d) (f := put f (fold y.indexName) none)
      (by rw [e2, put_self]) (fun x hx' => by
        obtain ⟨j, hj⟩ := hx x (by simp [hx'])
        refine ⟨j, ?_⟩
        rw [put_ne _ _ fun e => hn.1 (List.mem_map.2 ⟨x, hx', e⟩)]
        exact hj) hn.2 h2
    refine ⟨f', by rw [e3, e2, put_put], fun n x => ?_⟩
    rw [e4]
    by_cases e : n = fold y.indexName
    · subst e
      rw [put_self]
      simp
    · rw [put_ne _ _ e]
      have e' : fold y.indexName ≠ n := fun h => e h.symm
      simp [e']

/-! ## Columns -/

/-- DROP COLUMN for several columns. -/
theorem dropColumns_view {n : Str} {cs : List Column} {db db' : Sch} {T : Shape}
    {f : Str → Option Idx} (hk : view db (fold n) = some (T, f))
    (h : run fk db (cs.map fun c => .dropColumn (nm n) c.columnName) = some db') :
    (∀ c ∈ cs, ∀ k ∈ T.cons, inCon (fold c.columnName) k = false) ∧
    view db' = put (view db) (fold n) (some ({ T with cols := (T.cols.filter fun y =>
      !(cs.map fun c => fold c.columnName).contains (fold y.name)) }, f)) := by
  induction cs generalizing db T with
  | nil =>
    cases h
    refine ⟨by simp, ?_⟩
    have : T.cols.filter (fun y => !([] : List Str).contains (fold y.name)) = T.cols := by simp
    rw [List.map_nil, this, ← hk, put_same]
  | cons c cs ih =>
    obtain ⟨d, h1, h2⟩ := run_cons h
    obtain ⟨e1, e2⟩ := dropColumn_view (n := nm n) hk h1
    rw [key_nm] at e2
    obtain ⟨e3, e4⟩ := ih (by rw [e2, put_self]) h2
    refine ⟨fun x hx k hk' => ?_, ?_⟩
    · rcases List.mem_cons.1 hx with hx | hx
      · subst hx; exact e1 k hk'
      · exact e3 x hx k hk'
    · rw [e4, e2, put_put]
      congr 4
      rw [List.filter_filter]
      congr 1
      funext y
      rw [List.map_cons, List.contains_cons]
      by_cases e : fold y.name = fold c.columnName
      · simp [e]
      · simp [e]

/-- ADD COLUMN for several columns. -/
theorem addColumns_view {n : Str} {cs : List Column} {db db' : Sch} {T : Shape}
    {f : Str → Option Idx} (hk : view db (fold n) = some (T, f))
    (hT : (T.cols.map fun c => fold c.name).Nodup)
    (h : run fk db (cs.map fun c => .addColumn (nm n) (colOf .sqlite [] true c)) = some db') :
    (∀ c ∈ cs, (colOf .sqlite [] true c).primary = false ∧
      (colOf .sqlite [] true c).unique = false) ∧
    ((T.cols ++ cs.map (colOf .sqlite [] true)).map fun c => fold c.name).Nodup ∧
    view db' = put (view db) (fold n)
      (some ({ T with cols := T.cols ++ cs.map (colOf .sqlite [] true) }, f)) := by
  induction cs generalizing db T with
  | nil =>
    cases h
    refine ⟨by simp, by simpa using hT, ?_⟩
    rw [List.map_nil, List.append_nil, ← hk, put_same]
  | cons c cs ih =>
    obtain ⟨d, h1, h2⟩ := run_cons h
    obtain ⟨e0, e1, e1', e2⟩ := addColumn_view (n := nm n) hk h1
    rw [key_nm] at e2
    have hnd : ((T.cols ++ [colOf .sqlite [] true c]).map fun c => fold c.name).Nodup := by
      rw [List.map_append, List.map_singleton, List.nodup_append]
      refine ⟨hT, by simp, fun a ha b hb e => ?_⟩
      obtain ⟨x, hx, rfl⟩ := List.mem_map.1 ha
      rw [List.mem_singleton] at hb
      have := List.find?_eq_none.1 e0 x hx
      simp only [beq_iff_eq] at this
      exact this (e.trans hb)
    obtain ⟨e3, e5, e4⟩ := ih (T := { T with cols := T.cols ++ [colOf .sqlite [] true c] })
      (by rw [e2, put_self]) hnd h2
    refine ⟨fun x hx => ?_, ?_, ?_⟩
    · rcases List.mem_cons.1 hx with hx | hx
      · subst hx; exact ⟨e1, e1'⟩
      · exact e3 x hx
    · simpa using e5
    · rw [e4, e2, put_put]
      simp

/-! ## A table -/

/-- A new table. -/
theorem create_group {t : Table} {db db' : Sch}
    (hx : ∀ x ∈ t.indexes, x.tableSchema = [] ∧ x.tableName = t.tableName)
    (h : run fk db (createOf t) = some db') :
    view db (fold t.tableName) = none ∧ ((made t).cols.map fun c => fold c.name).Nodup ∧
    ∃ f, view db' = put (view db) (fold t.tableName) (some (made t, f)) ∧
      ∀ n x, f n = some x ↔ ∃ y ∈ t.indexes, fold y.indexName = n ∧ idxOfIndex y = x := by
  unfold createOf at h
  obtain ⟨d, h1, h2⟩ := run_cons h
  obtain ⟨e1, e2, e3⟩ := create_view h1
  rw [key_nm] at e1 e3
  obtain ⟨f, e4, e5⟩ := indexes_view (k := fold t.tableName)
    (fun x hx' => ⟨(hx x hx').1, by rw [(hx x hx').2]⟩) (by rw [e3, put_self]) h2
  refine ⟨e1, e2, f, by rw [e4, e3, put_put]; rfl, fun n x => ?_⟩
  rw [e5]
  simp

/-- A table that is rebuilt. -/
theorem rebuild_view {R : Str → Prop} {src dest : Table} {db db' : Sch}
    (hI : fk = true → NoRef R db) (hR : R (fold (dest.tableName ++ b!"_new")))
    (hd : fk = true → ∀ n, R n → ¬ References dest n)
    (hx : ∀ x ∈ dest.indexes, x.tableSchema = [] ∧ x.tableName = dest.tableName)
    (h : run fk db (rebuildOf src dest) = some db') :
    ((made dest).cols.map fun c => fold c.name).Nodup ∧
    ∃ f, view db' = put (view db) (fold dest.tableName) (some (made dest, f)) ∧
      ∀ n x, f n = some x ↔ ∃ y ∈ dest.indexes, fold y.indexName = n ∧ idxOfIndex y = x := by
  unfold rebuildOf at h
  obtain ⟨d4, h, hi⟩ := run_split h
  obtain ⟨d1, h1, h⟩ := run_cons h
  obtain ⟨d2, h2, h⟩ := run_cons h
  obtain ⟨d3, h3, h⟩ := run_cons h
  obtain ⟨d5, h4, h⟩ := run_cons h
  cases h
  obtain ⟨e1, e2, e3⟩ := create_view h1
  have := copy_view h2
  subst this
  obtain ⟨e4, e5⟩ := drop_view h3
  simp only [key_nm] at e1 e3 e4 e5
  have hne : fold (dest.tableName ++ b!"_new") ≠ fold dest.tableName := by
    intro e
    simp only [effect, key_nm] at h4
    have : d3.table (fold (dest.tableName ++ b!"_new")) = none := by
      rw [← view_none, e5, e, put_self]
    rw [this] at h4
    cases h4
  have hv : view d3 (fold (dest.tableName ++ b!"_new")) = some (made dest, fun _ => none) := by
    rw [e5, put_ne _ _ hne, e3, put_self]; rfl
  have hfree : fk = true → NoRef R d3 := fun hk =>
    noRef_remove (noRef_put (hI hk) (fun n hn => made_free (hd hk n hn)) e3) e5
  obtain ⟨e6, e7⟩ := rename_view (n := nm (dest.tableName ++ b!"_new")) hv (fun _ => rfl)
    (fun hk u U hu => hfree hk u U hu _ hR) h4
  rw [key_nm] at e7
  obtain ⟨f, e8, e9⟩ := indexes_view (k := fold dest.tableName)
    (fun x hx' => ⟨(hx x hx').1, by rw [(hx x hx').2]⟩) (by rw [e7, put_self]) hi
  refine ⟨e2, f, ?_, fun n x => by rw [e9]; simp⟩
  rw [e8, e7, put_put, e5, e3]
  funext u
  by_cases hu : u = fold dest.tableName
  · subst hu; rw [put_self, put_self]
  rw [put_ne _ _ hu, put_ne _ _ hu]
  by_cases hu2 : u = fold (dest.tableName ++ b!"_new")
  · subst hu2; rw [put_self, e1]
  rw [put_ne _ _ hu2, put_ne _ _ hu, put_ne _ _ hu2]

/-- A table that is changed in place. -/
def changed (a : AlterTable) (T : Shape) : Shape :=
  { T with cols := (T.cols.filter fun y =>
      !(a.dropColumns.map fun c => fold c.columnName).contains (fold y.name)) ++
    a.addColumns.map (colOf .sqlite [] true) }

/-- A table that is changed in place. -/
theorem inPlace_view {a : AlterTable} {db db' : Sch} {T : Shape} {f : Str → Option Idx}
    (hk : view db (fold a.destTable.tableName) = some (T, f))
    (hT : (T.cols.map fun c => fold c.name).Nodup)
    (hdi : ∀ x ∈ a.dropIndexes, ∃ i, f (fold x.indexName) = some i)
    (hdn : (a.dropIndexes.map fun x => fold x.indexName).Nodup)
    (hci : ∀ x ∈ a.createIndexes, x.tableSchema = [] ∧ x.tableName = a.destTable.tableName)
    (h : run fk db (inPlaceOf a) = some db') :
    (∀ c ∈ a.dropColumns, ∀ k ∈ T.cons, inCon (fold c.columnName) k = false) ∧
    (∀ c ∈ a.addColumns, (colOf .sqlite [] true c).primary = false ∧
      (colOf .sqlite [] true c).unique = false) ∧
    ((changed a T).cols.map fun c => fold c.name).Nodup ∧
    ∃ f', view db' = put (view db) (fold a.destTable.tableName) (some (changed a T, f')) ∧
      ∀ n x, f' n = some x ↔ (f n = some x ∧ ∀ y ∈ a.dropIndexes, fold y.indexName ≠ n) ∨
        ∃ y ∈ a.createIndexes, fold y.indexName = n ∧ idxOfIndex y = x := by
  unfold inPlaceOf at h
  obtain ⟨d3, h, h4⟩ := run_split h
  obtain ⟨d2, h, h3⟩ := run_split h
  obtain ⟨d1, h1, h2⟩ := run_split h
  obtain ⟨f1, e1, e1'⟩ := dropIndexes_view hk hdi hdn h1
  obtain ⟨e2, e3⟩ := dropColumns_view (by rw [e1, put_self]) h2
  obtain ⟨e4, e5, e6⟩ := addColumns_view (by rw [e3, put_self])
    (by
      refine List.Nodup.sublist ?_ hT
      exact List.Sublist.map _ List.filter_sublist) h3
  obtain ⟨f2, e7, e8⟩ := indexes_view (k := fold a.destTable.tableName)
    (fun x hx => ⟨(hci x hx).1, by rw [(hci x hx).2]⟩) (by rw [e6, put_self]) h4
  refine ⟨e2, e4, e5, f2, by rw [e7, e6, put_put, e3, put_put, e1, put_put]; rfl, fun n x => ?_⟩
  rw [e8, e1']

/-! ## Two versions of a table -/

/-- The tables differ in something else than surplus columns. -/
def _root_.LiteSchema.Touched (s t : Table) : Prop :=
  (∃ x ∈ liveColumns t, hasColumn s x.columnName = false) ∨
  (∃ x ∈ liveIndexes t, hasIndex s x.indexName = false) ∨
  (∃ x ∈ liveIndexes s, hasIndex t x.indexName = false) ∨
  (∃ x ∈ liveConstraints (nameTable t), hasConstraint (nameTable s) x.constraintName = false) ∨
  (∃ x ∈ liveConstraints (nameTable s), hasConstraint (nameTable t) x.constraintName = false) ∨
  ∃ a ∈ liveColumns s, ∃ b ∈ liveColumns t, a.columnName = b.columnName ∧
    (a.columnType ≠ b.columnType ∨ a.isNotNull ≠ b.isNotNull)

/-- The differences of two versions of a table that migrations do not take care of are absent:
constraints (which are compared by their generated names) and indexes of the same name are the same,
and a table from which columns are removed has another difference.  Names of columns and indexes are
different also without regard to case. -/
structure _root_.LiteSchema.Comparable (s t : Table) : Prop where
  columns : ((liveColumns s).map fun c => fold c.columnName).Nodup
  indexNames : ((liveIndexes s).map fun x => fold x.indexName).Nodup
  constraints : ∀ x ∈ liveConstraints (nameTable s), ∀ y ∈ liveConstraints (nameTable t),
    x.constraintName = y.constraintName → ruleOf x = ruleOf y
  indexes : ∀ x ∈ liveIndexes s, ∀ y ∈ liveIndexes t, x.indexName = y.indexName →
    idxOfIndex x = idxOfIndex y
  surplus : (∃ x ∈ liveColumns s, hasColumn t x.columnName = false) → Touched s t

/-- The differences of two tables with dropObjects, all of them. -/
structure Full (s t : Table) (a : AlterTable) : Prop where
  srcTable : a.srcTable = nameTable s
  destTable : a.destTable = nameTable t
  dropColumns : a.dropColumns = (liveColumns s).filter fun x => !hasColumn t x.columnName
  addColumns : a.addColumns = (liveColumns t).filter fun x => !hasColumn s x.columnName
  dropIndexes : a.dropIndexes = (liveIndexes s).filter fun x => !hasIndex t x.indexName
  createIndexes : a.createIndexes = (liveIndexes t).filter fun x => !hasIndex s x.indexName
  dropConstraints : a.dropConstraints = (liveConstraints (nameTable s)).filter fun x =>
    !hasConstraint (nameTable t) x.constraintName
  addConstraints : a.addConstraints = (liveConstraints (nameTable t)).filter fun x =>
    !hasConstraint (nameTable s) x.constraintName
  alterColumns : a.alterColumns = (CatalogSpec.commonColumns s t).filter fun p =>
    columnsAreDifferent .sqlite [] p.1 p.2
  alterConstraints : a.alterConstraints = []

/-- The table of the source, with its indexes. -/
def Start (t : Table) (v : Option (Shape × (Str → Option Idx))) : Prop :=
  ∃ T f, v = some (T, f) ∧ Shows T t ∧
    ∀ n x, f n = some x ↔ ∃ y ∈ liveIndexes t, fold y.indexName = n ∧ idxOfIndex y = x

/-- The table of the destination, with its indexes. -/
def Good (old : Option Table) (t : Table) (v : Option (Shape × (Str → Option Idx))) : Prop :=
  ∃ T f, v = some (T, f) ∧ Reached old T t ∧
    ∀ n x, f n = some x ↔ ∃ y ∈ t.indexes, fold y.indexName = n ∧ idxOfIndex y = x

theorem rule_name (c : Constraint) : ruleOf (sqliteNameConstraint c) = ruleOf c := by
  unfold sqliteNameConstraint
  split <;> rfl

/-- Generated names do not matter. -/
theorem named_iff (t : Table) (P : Constraint → Prop)
    (hP : ∀ c, P (sqliteNameConstraint c) ↔ P c) :
    (∃ c ∈ liveConstraints (nameTable t), P c) ↔ ∃ c ∈ liveConstraints t, P c := by
  unfold nameTable
  split
  · exact Iff.rfl
  · unfold liveConstraints
    constructor
    · rintro ⟨c, hc, h⟩
      obtain ⟨hc, hl⟩ := List.mem_filter.1 hc
      obtain ⟨x, hx, rfl⟩ := List.mem_map.1 hc
      exact ⟨x, List.mem_filter.2 ⟨hx, by rw [← (named_name x).1]; exact hl⟩, (hP x).1 h⟩
    · rintro ⟨c, hc, h⟩
      obtain ⟨hc, hl⟩ := List.mem_filter.1 hc
      refine ⟨sqliteNameConstraint c, List.mem_filter.2 ⟨List.mem_map.2 ⟨c, hc, rfl⟩, ?_⟩,
        (hP c).2 h⟩
      rw [(named_name c).1]; exact hl

theorem rules_name (t : Table) (r : Rule) :
    (∃ c ∈ liveConstraints (nameTable t), ruleOf c = r) ↔
      ∃ c ∈ liveConstraints t, ruleOf c = r :=
  named_iff t (fun c => ruleOf c = r) fun c => by rw [rule_name]

theorem named_columns (c : Constraint) : (sqliteNameConstraint c).columns = c.columns ∧
    (sqliteNameConstraint c).isDeferrable = c.isDeferrable := by
  unfold sqliteNameConstraint
  split <;> exact ⟨rfl, rfl⟩

theorem whole_name {t : Table} (h : Whole t) : Whole (nameTable t) := by
  obtain ⟨e1, -, e2, e3, -⟩ := nameTable_fields t
  have hl := (live_name t).1
  refine ⟨by rw [hl]; exact h.names, fun c hc => ?_, fun k hk h1 h2 => ?_, fun c hc r => ?_,
    fun k hk n hn => ?_, fun x hx => ?_⟩
  · rw [hl] at hc
    rw [h.primary c hc]
    refine (named_iff t (fun k => k.constraintType = b!"PRIMARY KEY" ∧ k.columns = [c.columnName])
      fun k => ?_).symm
    rw [(named_name k).2.1, (named_columns k).1]
  · have := (named_iff t (fun k => k.constraintType = b!"PRIMARY KEY" ∧ k.columns.length = 1 ∧
      k.isDeferrable = true) fun k => by
        rw [(named_name k).2.1, (named_columns k).1, (named_columns k).2])
    cases e : k.isDeferrable with
    | false => rfl
    | true =>
      obtain ⟨x, hx, h3, h4, h5⟩ := this.1 ⟨k, hk, h1, h2, e⟩
      rw [h.keys x hx h3 h4] at h5
      cases h5
  · rw [hl] at hc
    rw [h.refs c hc]
    refine (named_iff t (fun k => k.constraintType = b!"FOREIGN KEY" ∧
      k.columns = [c.columnName] ∧ ruleOf k = r) fun k => ?_).symm
    rw [(named_name k).2.1, (named_columns k).1, rule_name]
  · obtain ⟨x, hx, h1⟩ := (named_iff t (fun k => n ∈ k.columns) fun k => by
      rw [(named_columns k).1]).1 ⟨k, hk, hn⟩
    have := h.columns x hx n h1
    unfold hasColumn at this ⊢
    rw [hl]
    exact this
  · rw [e3] at hx
    rw [e1]
    exact h.indexes x hx

/-! ### Rules -/

theorem rule_primary (c : Constraint) (h : c.constraintType = b!"PRIMARY KEY") :
    ruleOf c = ⟨.primary c.columns, c.isDeferrable, c.isDeferrable && c.isInitiallyDeferred⟩ := by
  simp [ruleOf, conRule, conOf, kindOf, h, defers]

theorem rule_unique (c : Constraint) (h : c.constraintType = b!"UNIQUE") :
    ruleOf c = ⟨.unique c.columns, c.isDeferrable, c.isDeferrable && c.isInitiallyDeferred⟩ := by
  simp [ruleOf, conRule, conOf, kindOf, h, defers]

theorem rule_foreign (c : Constraint) (h : c.constraintType = b!"FOREIGN KEY") :
    ∃ r a b, ruleOf c = ⟨.foreign c.columns r, a, b⟩ := by
  simp [ruleOf, conRule, conOf, kindOf, h]

/-- The columns of a rule. -/
def ruleCols (r : Rule) : Option (List Str) :=
  match r.kind with
  | .primary cs | .unique cs | .foreign cs _ => some cs
  | _ => none

theorem ruleCols_of {c : Constraint} {cs : List Str} (h : ruleCols (ruleOf c) = some cs) :
    c.columns = cs := by
  unfold ruleCols ruleOf conRule conOf kindOf at h
  dsimp only at h
  by_cases h1 : c.constraintType = b!"PRIMARY KEY"
  · rw [if_pos h1] at h; exact Option.some.inj h
  rw [if_neg h1] at h
  by_cases h2 : c.constraintType = b!"UNIQUE"
  · rw [if_pos h2] at h; exact Option.some.inj h
  rw [if_neg h2] at h
  by_cases h3 : c.constraintType = b!"FOREIGN KEY"
  · rw [if_pos h3] at h; exact Option.some.inj h
  rw [if_neg h3] at h
  by_cases h4 : c.constraintType = b!"CHECK"
  · rw [if_pos h4] at h; cases h
  · rw [if_neg h4] at h; cases h

theorem colRules_cols {c : Col} {r : Rule} (h : r ∈ colRules c) : ruleCols r = some [c.name] := by
  unfold colRules at h
  rcases List.mem_append.1 h with h | h
  · rcases List.mem_append.1 h with h | h
    · split at h
      · rw [List.mem_singleton] at h; subst h; rfl
      · cases h
    · split at h
      · rw [List.mem_singleton] at h; subst h; rfl
      · cases h
  · rw [Option.mem_toList, Option.map_eq_some_iff] at h
    obtain ⟨x, -, rfl⟩ := h
    rfl

theorem inCon_of_cols {c : Con} {cs : List Str} {n : Str} (h : ruleCols (conRule c) = some cs)
    (hn : n ∈ cs) : inCon (fold n) c = true := by
  unfold ruleCols conRule at h
  unfold inCon
  dsimp only at h
  split at h
  all_goals first
    | (rename_i e; cases h; rw [e]; simp only [List.contains_iff_mem]
       exact List.mem_map.2 ⟨n, hn, rfl⟩)
    | cases h

theorem mem_rules {T : Shape} {r : Rule} :
    r ∈ T.rules ↔ (∃ c ∈ T.cols, r ∈ colRules c) ∨ ∃ c ∈ T.cons, conRule c = r := by
  unfold Shape.rules
  rw [List.mem_append, List.mem_flatMap, List.mem_map]

/-! ### New tables -/

theorem colRules_made (c : Column) : colRules (colOf .sqlite [] false c) =
    if c.isPrimaryKey then [⟨.primary [c.columnName], false, false⟩] else [] := by
  simp [colRules, colOf]

theorem made_rules {t : Table} (h : Whole t) (r : Rule) :
    r ∈ (made t).rules ↔ ∃ c ∈ liveConstraints t, ruleOf c = r := by
  rw [mem_rules, made]
  dsimp only
  rw [colsOf_items, consOf_items]
  constructor
  · rintro (⟨c, hc, hr⟩ | ⟨c, hc, rfl⟩)
    · obtain ⟨x, hx, rfl⟩ := List.mem_map.1 hc
      rw [colRules_made] at hr
      split at hr
      · rename_i hp
        rw [List.mem_singleton] at hr
        subst hr
        obtain ⟨k, hk, h1, h2⟩ := (h.primary x hx).1 hp
        have h3 := h.keys k hk h1 (by rw [h2]; rfl)
        exact ⟨k, hk, by rw [rule_primary k h1, h2, h3]; rfl⟩
      · cases hr
    · obtain ⟨x, hx, rfl⟩ := List.mem_map.1 hc
      exact ⟨x, (List.mem_filter.1 hx).1, rfl⟩
  · rintro ⟨k, hk, rfl⟩
    by_cases hp : primaryKey k = true ∧ k.columns.length = 1
    · obtain ⟨h1, h2⟩ := hp
      simp only [primaryKey, decide_eq_true_eq] at h1
      obtain ⟨n, hn⟩ := List.length_eq_one_iff.1 h2
      have := h.columns k hk n (by rw [hn]; simp)
      obtain ⟨c, hc, e⟩ := List.any_eq_true.1 this
      simp only [beq_iff_eq] at e
      refine Or.inl ⟨_, List.mem_map.2 ⟨c, hc, rfl⟩, ?_⟩
      rw [colRules_made, if_pos ((h.primary c hc).2 ⟨k, hk, h1, by rw [hn, e]⟩), rule_primary k h1,
        hn, e, h.keys k hk h1 h2]
      exact List.mem_singleton.2 rfl
    · refine Or.inr ⟨_, List.mem_map.2 ⟨k, List.mem_filter.2 ⟨hk, ?_⟩, rfl⟩, rfl⟩
      simp only [if_true]
      cases e1 : primaryKey k with
      | false => rfl
      | true =>
        have : k.columns.length ≠ 1 := fun e => hp ⟨e1, e⟩
        simpa using this

theorem colsOfTable_name (t : Table) : colsOfTable (nameTable t) = colsOfTable t := by
  unfold colsOfTable
  rw [(live_name t).1]

theorem made_reached {t : Table} (h : Whole t) (old : Option Table)
    (hn : ((made (nameTable t)).cols.map fun c => fold c.name).Nodup) :
    Reached old (made (nameTable t)) t := by
  refine ⟨hn, fun n => Or.inl ?_, fun r => ?_⟩
  · rw [made]
    dsimp only
    rw [colsOf_items]
    have := colsOfTable_name t
    unfold colsOfTable at this ⊢
    rw [this]
  · rw [made_rules (whole_name h), rules_name]

/-! ### Changes in place -/

/-- When a table is not rebuilt. -/
structure InPlace (a : AlterTable) : Prop where
  alterColumns : a.alterColumns = []
  drops : ∀ c ∈ a.dropConstraints, c.constraintType = b!"FOREIGN KEY" ∧
    ∃ n, c.columns = [n] ∧ ∃ x ∈ a.dropColumns, x.columnName = n
  adds : ∀ c ∈ a.addConstraints, c.constraintType = b!"FOREIGN KEY" ∧
    ∃ n, c.columns = [n] ∧ ∃ x ∈ a.addColumns, x.columnName = n

theorem copyFor_false {cols : List Str} {cs : List Constraint} (h : copyFor cols cs = some false) :
    ∀ c ∈ cs, c.constraintType = b!"FOREIGN KEY" ∧ ∃ n, c.columns = [n] ∧ n ∈ cols := by
  intro c hc
  unfold copyFor at h
  split at h
  · cases h
  rename_i hno
  have h := Option.some.inj h
  have h1 := List.any_eq_false.1 h c hc
  have h2 : ¬ (c.constraintType = b!"FOREIGN KEY" ∧ c.columns = []) := fun e =>
    hno (List.any_eq_true.2 ⟨c, hc, by
      have : c.constraintType = FOREIGN_KEY := e.1
      simp [this, e.2]⟩)
  simp only [Bool.or_eq_true, not_or, Bool.not_eq_true', Bool.and_eq_false_iff] at h1
  have h3 : c.constraintType = FOREIGN_KEY := by simpa using h1.1.1
  have h4 : c.columns.length ≤ 1 := by simpa using h1.1.2
  refine ⟨h3, ?_⟩
  match hcs : c.columns with
  | [] => exact absurd ⟨h3, hcs⟩ h2
  | [n] =>
    refine ⟨n, rfl, ?_⟩
    have := h1.2
    rw [hcs] at this
    simpa using this
  | _ :: _ :: _ => rw [hcs] at h4; simp at h4

theorem copies_false {a : AlterTable} (h : copies a = some false) : InPlace a := by
  unfold copies at h
  split at h
  · cases h
  rename_i h0
  obtain ⟨x, hx, h⟩ := Option.bind_eq_some_iff.1 h
  obtain ⟨y, hy, h⟩ := Option.map_eq_some_iff.1 h
  simp only [Bool.or_eq_false_iff] at h
  obtain ⟨rfl, rfl⟩ := h
  refine ⟨by simpa using h0, fun c hc => ?_, fun c hc => ?_⟩
  · obtain ⟨h1, n, h2, h3⟩ := copyFor_false hx c hc
    obtain ⟨z, hz, e⟩ := List.mem_map.1 h3
    exact ⟨h1, n, h2, z, hz, e⟩
  · obtain ⟨h1, n, h2, h3⟩ := copyFor_false hy c hc
    obtain ⟨z, hz, e⟩ := List.mem_map.1 h3
    exact ⟨h1, n, h2, z, hz, e⟩

theorem findCol_some {cols : List Col} {n : Str} {c : Col} (h : findCol cols n = some c) :
    c ∈ cols ∧ fold c.name = n := by
  have := List.find?_some h
  exact ⟨List.mem_of_find?_eq_some h, by simpa using this⟩

theorem findCol_none {cols : List Col} {n : Str} :
    findCol cols n = none ↔ ∀ c ∈ cols, fold c.name ≠ n := by
  unfold findCol
  rw [List.find?_eq_none]
  simp

theorem findCol_mem {cols : List Col} (hn : (cols.map fun c => fold c.name).Nodup) {c : Col}
    (hc : c ∈ cols) : findCol cols (fold c.name) = some c := by
  cases h : findCol cols (fold c.name) with
  | none => exact absurd rfl (findCol_none.1 h c hc)
  | some x =>
    obtain ⟨h1, h2⟩ := findCol_some h
    rw [nodup_inj hn h1 hc h2]

theorem findCol_append (a b : List Col) (n : Str) :
    findCol (a ++ b) n = (findCol a n).or (findCol b n) := by
  unfold findCol
  rw [List.find?_append]

theorem colOf_bare (c : Column) :
    bare (colOf .sqlite [] true c) = bare (colOf .sqlite [] false c) := rfl

theorem hasColumn_iff {t : Table} {n : Str} :
    hasColumn t n = true ↔ ∃ c ∈ liveColumns t, c.columnName = n := by
  unfold hasColumn
  rw [List.any_eq_true]
  simp

theorem hasColumn_false {t : Table} {n : Str} :
    hasColumn t n = false ↔ ∀ c ∈ liveColumns t, c.columnName ≠ n := by
  unfold hasColumn
  rw [List.any_eq_false]
  simp

/-- The columns of the table of the database are those of the catalog. -/
theorem Shows.find {T : Shape} {t : Table} (h : Shows T t)
    (hn : ((liveColumns t).map fun c => fold c.columnName).Nodup) {c : Column}
    (hc : c ∈ liveColumns t) :
    ∃ x, findCol T.cols (fold c.columnName) = some x ∧ bare x = bare (colOf .sqlite [] false c) := by
  have h1 := h.cols (fold c.columnName)
  have h2 : findCol (colsOfTable t) (fold c.columnName) = some (colOf .sqlite [] false c) := by
    refine findCol_mem (c := colOf .sqlite [] false c) ?_ (List.mem_map.2 ⟨c, hc, rfl⟩)
    unfold colsOfTable
    rw [List.map_map]
    exact hn
  rw [h2] at h1
  cases e : findCol T.cols (fold c.columnName) with
  | none => rw [e] at h1; cases h1
  | some x => rw [e] at h1; exact ⟨x, rfl, Option.some.inj h1⟩

theorem Shows.name {T : Shape} {t : Table} (h : Shows T t) {x : Col} (hx : x ∈ T.cols) :
    ∃ c ∈ liveColumns t, x.name = c.columnName := by
  have h1 := h.cols (fold x.name)
  rw [findCol_mem h.names hx] at h1
  cases e : findCol (colsOfTable t) (fold x.name) with
  | none => rw [e] at h1; cases h1
  | some y =>
    rw [e] at h1
    obtain ⟨hy, -⟩ := findCol_some e
    obtain ⟨c, hc, rfl⟩ := List.mem_map.1 hy
    refine ⟨c, hc, ?_⟩
    have := congrArg Col.name (Option.some.inj h1)
    exact this

section
variable {s t : Table} {a : AlterTable} {T : Shape}

theorem common_unchanged (hf : Full s t a) (hp : a.alterColumns = []) (hc : Comparable s t)
    {x y : Column} (hx : x ∈ liveColumns s) (hy : y ∈ liveColumns t)
    (hxy : x.columnName = y.columnName) : Unchanged x y := by
  have hcom : (x, y) ∈ CatalogSpec.commonColumns s t := by
    unfold CatalogSpec.commonColumns
    refine List.mem_filterMap.2 ⟨y, hy, ?_⟩
    cases e : (liveColumns s).find? fun s => s.columnName == y.columnName with
    | none =>
      have := List.find?_eq_none.1 e x hx
      simp [hxy] at this
    | some z =>
      have h1 := List.mem_of_find?_eq_some e
      have h2 := List.find?_some e
      simp only [beq_iff_eq] at h2
      have := nodup_inj hc.columns h1 hx (by rw [h2, hxy])
      subst this
      rfl
  have hsame : columnsAreDifferent .sqlite [] x y = false := by
    have := hf.alterColumns
    rw [hp] at this
    have := (List.filter_eq_nil_iff.1 this.symm) (x, y) hcom
    simpa using this
  unfold columnsAreDifferent at hsame
  simp only [Bool.or_eq_false_iff, decide_eq_false_iff_not, Decidable.not_not, ne_eq]
    at hsame
  obtain ⟨⟨⟨⟨h1, h2⟩, h3⟩, -⟩, -⟩ := hsame
  exact ⟨h1, normalizeColumnDefault_distinguishes_partial .sqlite _ _ (by simp) (by simp) h2,
    by simpa using h3⟩

/-- The columns of a table that is changed in place. -/
theorem inPlace_cols (hf : Full s t a) (hp : a.alterColumns = []) (hw : Whole t)
    (hc : Comparable s t) (hT : Shows T s) (n : Str) :
    (findCol (changed a T).cols n).map bare = (findCol (colsOfTable t) n).map bare ∨
    ∃ x ∈ liveColumns s, ∃ y ∈ liveColumns t, x.columnName = y.columnName ∧
      fold y.columnName = n ∧ Unchanged x y ∧
      (findCol (changed a T).cols n).map bare = some (bare (colOf .sqlite [] false x)) := by
  unfold changed
  dsimp only
  rw [findCol_append]
  have hdrop : ∀ m, (a.dropColumns.map fun c => fold c.columnName).contains m = true ↔
      ∃ x ∈ liveColumns s, hasColumn t x.columnName = false ∧ fold x.columnName = m := by
    intro m
    rw [List.contains_iff_mem, List.mem_map, hf.dropColumns]
    constructor
    · rintro ⟨x, hx, e⟩
      obtain ⟨h1, h2⟩ := List.mem_filter.1 hx
      exact ⟨x, h1, by simpa using h2, e⟩
    · rintro ⟨x, h1, h2, e⟩
      exact ⟨x, List.mem_filter.2 ⟨h1, by simp [h2]⟩, e⟩
  have hkeep : findCol (T.cols.filter fun y =>
      !(a.dropColumns.map fun c => fold c.columnName).contains (fold y.name)) n =
      if (a.dropColumns.map fun c => fold c.columnName).contains n then none
      else findCol T.cols n := by
    unfold findCol
    rw [List.find?_filter]
    split
    · rename_i h
      rw [List.find?_eq_none]
      intro y hy
      by_cases e : fold y.name = n
      · subst e
        rw [h]; simp
      · simp [e]
    · rename_i h
      congr 1
      funext y
      by_cases e : fold y.name = n
      · subst e
        rw [Bool.not_eq_true] at h
        rw [h]; simp
      · simp [e]
  rw [hkeep]
  cases eg : findCol (colsOfTable t) n with
  | none =>
    left
    -- the destination has no such column
    have hno : ∀ y ∈ liveColumns t, fold y.columnName ≠ n := fun y hy e =>
      findCol_none.1 eg _ (List.mem_map.2 ⟨y, hy, rfl⟩) e
    have h2 : findCol (a.addColumns.map (colOf .sqlite [] true)) n = none := by
      rw [findCol_none]
      intro c hc' e
      obtain ⟨y, hy, rfl⟩ := List.mem_map.1 hc'
      rw [hf.addColumns] at hy
      exact hno y (List.mem_filter.1 hy).1 e
    have h1 : (if (a.dropColumns.map fun c => fold c.columnName).contains n then none
        else findCol T.cols n) = none := by
      split
      · rfl
      · rename_i hnd
        cases e : findCol T.cols n with
        | none => rfl
        | some x =>
          obtain ⟨hx, hxn⟩ := findCol_some e
          obtain ⟨z, hz, hzn⟩ := Shows.name hT hx
          refine absurd ((hdrop n).2 ⟨z, hz, ?_, ?_⟩) hnd
          · rw [hasColumn_false]
            intro y hy e
            exact hno y hy (by rw [e, ← hzn, hxn])
          · rw [← hzn, hxn]
    rw [h1, h2]
    rfl
  | some g =>
    obtain ⟨hg, hgn⟩ := findCol_some eg
    obtain ⟨y, hy, rfl⟩ := List.mem_map.1 hg
    have hgn : fold y.columnName = n := hgn
    subst hgn
    cases hh : hasColumn s y.columnName with
    | true =>
      right
      obtain ⟨x, hx, hxy⟩ := hasColumn_iff.1 hh
      refine ⟨x, hx, y, hy, hxy, rfl, ?_, ?_⟩
      · exact common_unchanged hf hp hc hx hy hxy
      · have hnd : (a.dropColumns.map fun c => fold c.columnName).contains (fold y.columnName) =
            false := by
          rw [Bool.eq_false_iff]
          intro h
          obtain ⟨z, hz, h1, h2⟩ := (hdrop _).1 h
          have := nodup_inj hc.columns hz hx (by rw [h2, hxy])
          subst this
          rw [hasColumn_false] at h1
          exact h1 y hy hxy.symm
        obtain ⟨w, h1, h2⟩ := Shows.find hT hc.columns hx
        rw [hnd, ← hxy, h1]
        simp [h2]
    | false =>
      left
      have hnone : (if (a.dropColumns.map fun c => fold c.columnName).contains (fold y.columnName)
          then none else findCol T.cols (fold y.columnName)) = none := by
        split
        · rfl
        · rename_i hnd
          cases e : findCol T.cols (fold y.columnName) with
          | none => rfl
          | some x =>
            obtain ⟨hx, hxn⟩ := findCol_some e
            obtain ⟨z, hz, hzn⟩ := Shows.name hT hx
            refine absurd ((hdrop _).2 ⟨z, hz, ?_, by rw [← hzn, hxn]⟩) hnd
            rw [hasColumn_false]
            intro y' hy' e'
            have := nodup_inj hw.names hy' hy (by rw [e', ← hzn, hxn])
            subst this
            rw [hasColumn_false] at hh
            exact hh z hz e'.symm
      have hadd : findCol (a.addColumns.map (colOf .sqlite [] true)) (fold y.columnName) =
          some (colOf .sqlite [] true y) := by
        refine findCol_mem (c := colOf .sqlite [] true y) ?_ (List.mem_map.2 ⟨y, ?_, rfl⟩)
        · rw [List.map_map, hf.addColumns]
          exact hw.names.sublist (List.Sublist.map _ List.filter_sublist)
        · rw [hf.addColumns]
          exact List.mem_filter.2 ⟨hy, by simp [hh]⟩
      rw [hnone, hadd]
      rfl

theorem hasConstraint_iff {t : Table} {n : Str} :
    hasConstraint t n = true ↔ ∃ c ∈ liveConstraints t, c.constraintName = n := by
  unfold hasConstraint
  rw [List.any_eq_true]
  simp

/-- The constraints of a table that is changed in place. -/
theorem inPlace_rules (hf : Full s t a) (hp : InPlace a) (hw : Whole t)
    (hc : Comparable s t) (hT : Shows T s)
    (hcon : ∀ c ∈ a.dropColumns, ∀ k ∈ T.cons, inCon (fold c.columnName) k = false)
    (hadd : ∀ c ∈ a.addColumns, (colOf .sqlite [] true c).primary = false ∧
      (colOf .sqlite [] true c).unique = false) (r : Rule) :
    r ∈ (changed a T).rules ↔ ∃ c ∈ liveConstraints t, ruleOf c = r := by
  -- the rules of the added columns
  have hnew : ∀ y ∈ a.addColumns, (r ∈ colRules (colOf .sqlite [] true y) ↔
      ∃ k ∈ liveConstraints t, k.constraintType = b!"FOREIGN KEY" ∧
        k.columns = [y.columnName] ∧ ruleOf k = r) := by
    intro y hy
    have hl : y ∈ liveColumns t := by
      rw [hf.addColumns] at hy
      exact (List.mem_filter.1 hy).1
    rw [← hw.refs y hl r]
    have e : { bare (colOf .sqlite [] true y) with
        ref := (colOf .sqlite [] true y).ref
        deferrable := (colOf .sqlite [] true y).deferrable
        initiallyDeferred := (colOf .sqlite [] true y).initiallyDeferred } =
        colOf .sqlite [] true y := by
      obtain ⟨h1, h2⟩ := hadd y hy
      generalize colOf .sqlite [] true y = c at h1 h2
      obtain ⟨⟩ := c
      simp only at h1 h2
      subst h1 h2
      rfl
    rw [e]
  -- a constraint that is in the source only
  have hgone : ∀ k ∈ liveConstraints (nameTable s),
      hasConstraint (nameTable t) k.constraintName = false →
      ∃ n, ruleCols (ruleOf k) = some [n] ∧ ∃ x ∈ a.dropColumns, x.columnName = n := by
    intro k hk h
    obtain ⟨h1, n, h2, h3⟩ := hp.drops k (by
      rw [hf.dropConstraints]
      exact List.mem_filter.2 ⟨hk, by simp [h]⟩)
    refine ⟨n, ?_, h3⟩
    obtain ⟨x, y, z, e⟩ := rule_foreign k h1
    rw [e, h2]
    rfl
  rw [← rules_name t, mem_rules]
  constructor
  · intro hr
    have hnamed : r ∈ T.rules → (∀ x ∈ a.dropColumns, ruleCols r ≠ some [x.columnName]) →
        ∃ c ∈ liveConstraints (nameTable t), ruleOf c = r := by
      intro hr hno
      obtain ⟨k, hk, rfl⟩ := (rules_name s r).2 ((hT.rules r).1 hr)
      cases h : hasConstraint (nameTable t) k.constraintName with
      | true =>
        obtain ⟨y, hy, e⟩ := hasConstraint_iff.1 h
        exact ⟨y, hy, (hc.constraints k hk y hy e.symm).symm⟩
      | false =>
        obtain ⟨n, h1, x, hx, rfl⟩ := hgone k hk h
        exact absurd h1 (hno x hx)
    rcases hr with ⟨c, hcm, hr⟩ | ⟨c, hcm, rfl⟩
    · rcases List.mem_append.1 hcm with hcm | hcm
      · obtain ⟨h1, h2⟩ := List.mem_filter.1 hcm
        refine hnamed (mem_rules.2 (Or.inl ⟨c, h1, hr⟩)) fun x hx e => ?_
        rw [colRules_cols hr] at e
        have e : c.name = x.columnName := by simpa using e
        simp only [Bool.not_eq_true', ← Bool.not_eq_true, List.contains_iff_mem] at h2
        exact h2 (List.mem_map.2 ⟨x, hx, by rw [e]⟩)
      · obtain ⟨y, hy, rfl⟩ := List.mem_map.1 hcm
        obtain ⟨k, hk, -, -, e⟩ := (hnew y hy).1 hr
        exact (rules_name t r).2 ⟨k, hk, e⟩
    · refine hnamed (mem_rules.2 (Or.inr ⟨c, hcm, rfl⟩)) fun x hx e => ?_
      have := inCon_of_cols (n := x.columnName) e (by simp)
      rw [hcon x hx c hcm] at this
      cases this
  · rintro ⟨k, hk, rfl⟩
    cases h : hasConstraint (nameTable s) k.constraintName with
    | true =>
      obtain ⟨x, hx, e⟩ := hasConstraint_iff.1 h
      have hr : ruleOf k ∈ T.rules :=
        (hT.rules _).2 ((rules_name s _).1 ⟨x, hx, hc.constraints x hx k hk e⟩)
      rcases mem_rules.1 hr with ⟨c, hcm, hr⟩ | h
      · refine Or.inl ⟨c, List.mem_append_left _ (List.mem_filter.2 ⟨hcm, ?_⟩), hr⟩
        rw [Bool.not_eq_true', ← Bool.not_eq_true, List.contains_iff_mem]
        intro hd
        obtain ⟨z, hz, hzc⟩ := List.mem_map.1 hd
        rw [hf.dropColumns] at hz
        obtain ⟨hz1, hz2⟩ := List.mem_filter.1 hz
        have hcols := ruleCols_of (colRules_cols hr)
        have h1 := (whole_name hw).columns k hk c.name (by rw [hcols]; simp)
        obtain ⟨y, hy, hyc⟩ := hasColumn_iff.1 h1
        rw [(live_name t).1] at hy
        obtain ⟨w, hw1, hw2⟩ := Shows.name hT hcm
        have := nodup_inj hc.columns hz1 hw1 (by rw [hzc, hw2])
        subst this
        simp only [Bool.not_eq_true', hasColumn_false] at hz2
        exact hz2 y hy (by rw [hyc, hw2])
      · exact Or.inr h
    | false =>
      obtain ⟨h1, n, h2, y, hy, e⟩ := hp.adds k (by
        rw [hf.addConstraints]
        exact List.mem_filter.2 ⟨hk, by simp [h]⟩)
      refine Or.inl ⟨_, List.mem_append_right _ (List.mem_map.2 ⟨y, hy, rfl⟩), ?_⟩
      have h3 := (named_iff t (fun c => c.constraintType = b!"FOREIGN KEY" ∧
        c.columns = [y.columnName] ∧ ruleOf c = ruleOf k) fun c => by
          rw [(named_name c).2.1, (named_columns c).1, rule_name]).1
        ⟨k, hk, h1, by rw [h2, e], rfl⟩
      have hl : y ∈ liveColumns t := by
        rw [hf.addColumns] at hy
        exact (List.mem_filter.1 hy).1
      have h4 := (hw.refs y hl (ruleOf k)).2 h3
      have e' : { bare (colOf .sqlite [] true y) with
          ref := (colOf .sqlite [] true y).ref
          deferrable := (colOf .sqlite [] true y).deferrable
          initiallyDeferred := (colOf .sqlite [] true y).initiallyDeferred } =
          colOf .sqlite [] true y := by
        obtain ⟨h1, h2⟩ := hadd y hy
        generalize colOf .sqlite [] true y = c at h1 h2
        obtain ⟨⟩ := c
        simp only at h1 h2
        subst h1 h2
        rfl
      rw [e'] at h4
      exact h4

theorem hasIndex_iff {t : Table} {n : Str} :
    hasIndex t n = true ↔ ∃ x ∈ liveIndexes t, x.indexName = n := by
  unfold hasIndex
  rw [List.any_eq_true]
  simp

theorem whole_indexes (hw : Whole t) : liveIndexes t = t.indexes := by
  unfold liveIndexes
  rw [List.filter_eq_self]
  intro x hx
  rw [(hw.indexes x hx).1]
  rfl

/-- The indexes of a table that is changed in place. -/
theorem inPlace_indexes (hf : Full s t a) (hw : Whole t) (hc : Comparable s t)
    {f f' : Str → Option Idx}
    (hi : ∀ n x, f n = some x ↔ ∃ y ∈ liveIndexes s, fold y.indexName = n ∧ idxOfIndex y = x)
    (hi' : ∀ n x, f' n = some x ↔ (f n = some x ∧ ∀ y ∈ a.dropIndexes, fold y.indexName ≠ n) ∨
        ∃ y ∈ a.createIndexes, fold y.indexName = n ∧ idxOfIndex y = x) (n : Str) (x : Idx) :
    f' n = some x ↔ ∃ y ∈ t.indexes, fold y.indexName = n ∧ idxOfIndex y = x := by
  rw [hi', hi, ← whole_indexes hw, hf.dropIndexes, hf.createIndexes]
  constructor
  · rintro (⟨⟨y, hy, rfl, rfl⟩, hno⟩ | ⟨y, hy, h⟩)
    · cases h : hasIndex t y.indexName with
      | true =>
        obtain ⟨z, hz, e⟩ := hasIndex_iff.1 h
        exact ⟨z, hz, by rw [e], (hc.indexes y hy z hz e.symm).symm⟩
      | false => exact absurd rfl (hno y (List.mem_filter.2 ⟨hy, by rw [h]; rfl⟩))
    · exact ⟨y, (List.mem_filter.1 hy).1, h⟩
  · rintro ⟨y, hy, rfl, rfl⟩
    cases h : hasIndex s y.indexName with
    | true =>
      obtain ⟨z, hz, e⟩ := hasIndex_iff.1 h
      refine Or.inl ⟨⟨z, hz, by rw [e], hc.indexes z hz y hy e⟩, fun w hw' e' => ?_⟩
      obtain ⟨h1, h2⟩ := List.mem_filter.1 hw'
      have := nodup_inj hc.indexNames h1 hz (by rw [e', e])
      subst this
      rw [e, hasIndex_iff.2 ⟨y, hy, rfl⟩] at h2
      cases h2
    | false => exact Or.inr ⟨y, List.mem_filter.2 ⟨hy, by rw [h]; rfl⟩, rfl, rfl⟩

theorem changed_free {R : Str → Prop} (hf : Full s t a) (hT : ∀ n, R n → T.free n)
    (hd : ∀ n, R n → ¬ References t n) : ∀ n, R n → (changed a T).free n := by
  intro n hn
  refine ⟨fun c hc r hr => ?_, (hT n hn).2⟩
  rcases List.mem_append.1 hc with hc | hc
  · exact (hT n hn).1 c (List.mem_filter.1 hc).1 r hr
  · obtain ⟨x, hx, rfl⟩ := List.mem_map.1 hc
    rw [hf.addColumns] at hx
    intro e
    refine hd n hn (Or.inr ⟨x, (List.mem_filter.1 hx).1, ?_⟩)
    simp only [colOf, if_true] at hr
    cases e2 : refOf x with
    | none => rw [e2] at hr; cases hr
    | some q => rw [e2] at hr; cases hr; exact ⟨_, rfl, e⟩

/-- A table that is changed in place. -/
theorem inPlace_good {R : Str → Prop} (hf : Full s t a) (hp : InPlace a) (hw : Whole t)
    (hc : Comparable s t) {db db' : Sch} (hI : fk = true → NoRef R db)
    (hd : fk = true → ∀ n, R n → ¬ References t n)
    (hk : Start s (view db (fold t.tableName)))
    (h : run fk db (inPlaceOf a) = some db') :
    ∃ v, view db' = put (view db) (fold t.tableName) v ∧ Good (some s) t v ∧
      (fk = true → NoRef R db') := by
  obtain ⟨T, f, hv, hT, hi⟩ := hk
  have en : a.destTable.tableName = t.tableName := by rw [hf.destTable, (nameTable_fields t).1]
  obtain ⟨h1, h2, h3, f', h4, h5⟩ := inPlace_view (a := a) (by rw [en]; exact hv) hT.names
    (fun x hx => by
      rw [hf.dropIndexes] at hx
      exact ⟨_, (hi _ _).2 ⟨x, (List.mem_filter.1 hx).1, rfl, rfl⟩⟩)
    (by
      rw [hf.dropIndexes]
      exact hc.indexNames.sublist (List.Sublist.map _ List.filter_sublist))
    (fun x hx => by
      rw [hf.createIndexes] at hx
      have := (List.mem_filter.1 hx).1
      rw [whole_indexes hw] at this
      rw [en]
      exact (hw.indexes x this).2) h
  rw [en] at h4
  refine ⟨_, h4, ⟨_, _, rfl, ⟨h3, fun n => ?_, fun r => ?_⟩, inPlace_indexes hf hw hc hi h5⟩,
    fun e => ?_⟩
  · rcases inPlace_cols hf hp.alterColumns hw hc hT n with h | h
    · exact Or.inl h
    · exact Or.inr ⟨s, rfl, h⟩
  · exact inPlace_rules hf hp hw hc hT h1 h2 r
  · exact noRef_put (hI e) (changed_free hf (fun n hn => (hI e) _ T (view_some.1 hv).1 n hn)
      (hd e)) h4

/-- A table that is not changed. -/
theorem same_good (hf : Full s t a) (hno : a.worthKeeping = false) (hw : Whole t)
    (hc : Comparable s t) {v : Option (Shape × (Str → Option Idx))} (hk : Start s v) :
    Good (some s) t v := by
  obtain ⟨T, f, hv, hT, hi⟩ := hk
  unfold AlterTable.worthKeeping at hno
  simp only [Bool.or_eq_false_iff, Bool.not_eq_false', List.isEmpty_iff] at hno
  obtain ⟨⟨⟨⟨⟨⟨e1, e2⟩, e3⟩, e4⟩, -⟩, e5⟩, e6⟩ := hno
  -- no column is surplus
  have e7 : a.dropColumns = [] := by
    rw [hf.dropColumns, List.filter_eq_nil_iff]
    intro x hx hd
    have htouch := hc.surplus ⟨x, hx, by simpa using hd⟩
    have hnil : ∀ {α : Type} {xs ys : List α} {p : α → Bool}, xs = [] → xs = ys.filter p →
        ∀ y ∈ ys, p y = false := by
      intro α xs ys p h1 h2 y hy
      rw [h1] at h2
      have := List.filter_eq_nil_iff.1 h2.symm y hy
      simpa using this
    rcases htouch with ⟨y, hy, h⟩ | ⟨y, hy, h⟩ | ⟨y, hy, h⟩ | ⟨y, hy, h⟩ | ⟨y, hy, h⟩ |
      ⟨y, hy, z, hz, h, h'⟩
    · have := hnil e3 hf.addColumns y hy; rw [h] at this; cases this
    · have := hnil e5 hf.createIndexes y hy; rw [h] at this; cases this
    · have := hnil e2 hf.dropIndexes y hy; rw [h] at this; cases this
    · have := hnil e6 hf.addConstraints y hy; rw [h] at this; cases this
    · have := hnil e1 hf.dropConstraints y hy; rw [h] at this; cases this
    · have := common_unchanged hf e4 hc hy hz h
      rcases h' with h' | h'
      · exact h' this.type
      · exact h' this.notNull
  have hch : changed a T = T := by
    unfold changed
    rw [e7, e3]
    obtain ⟨cols, cons⟩ := T
    simp
  refine ⟨T, f, hv, ⟨hT.names, fun n => ?_, fun r => ?_⟩, ?_⟩
  · have := inPlace_cols hf e4 hw hc hT n
    rw [hch] at this
    rcases this with h | h
    · exact Or.inl h
    · exact Or.inr ⟨s, rfl, h⟩
  · have := inPlace_rules hf ⟨e4, by rw [e1]; simp, by rw [e6]; simp⟩ hw hc hT
      (by rw [e7]; simp) (by rw [e3]; simp) r
    rw [hch] at this
    exact this
  · exact inPlace_indexes hf hw hc hi (by rw [e2, e5]; simp)

/-- A table that is changed. -/
theorem change_good {R : Str → Prop} (hf : Full s t a) (hcp : copies a ≠ none) (hw : Whole t)
    (hc : Comparable s t) {db db' : Sch} (hI : fk = true → NoRef R db)
    (hR : R (fold (t.tableName ++ b!"_new")))
    (hd : fk = true → ∀ n, R n → ¬ References t n)
    (hk : Start s (view db (fold t.tableName)))
    (h : run fk db (changeOf a) = some db') :
    ∃ v, view db' = put (view db) (fold t.tableName) v ∧ Good (some s) t v ∧
      (fk = true → NoRef R db') := by
  unfold changeOf at h
  split at h
  · have en : a.destTable.tableName = t.tableName := by rw [hf.destTable, (nameTable_fields t).1]
    have hd' : fk = true → ∀ n, R n → ¬ References (nameTable t) n :=
      fun e n hn href => hd e n hn (references_name href)
    obtain ⟨h1, f, h2, h3⟩ := rebuild_view (R := R) hI (by rw [en]; exact hR)
      (by rw [hf.destTable]; exact hd')
      (by
        rw [hf.destTable]
        exact fun x hx => ((whole_name hw).indexes x hx).2) h
    rw [hf.destTable] at h1 h2 h3
    rw [(nameTable_fields t).1] at h2
    rw [(nameTable_fields t).2.2.2.1] at h3
    exact ⟨_, h2, ⟨_, _, rfl, made_reached hw _ h1, h3⟩, fun e =>
      noRef_put (hI e) (fun n hn => made_free (hd' e n hn)) h2⟩
  · rename_i hn
    have : copies a = some false := by
      cases e : copies a with
      | none => exact absurd e hcp
      | some b =>
        cases b with
        | true => exact absurd e hn
        | false => rfl
    exact inPlace_good hf (copies_false this) hw hc hI hd hk h

end

/-! ## All changes -/

/-- DROP TABLE for several tables. -/
theorem drops_view {R : Str → Prop} {ts : List Table} {db db' : Sch}
    (hI : fk = true → NoRef R db)
    (h : run fk db (ts.map fun t => .dropTable (nm t.tableName)) = some db') :
    (∀ t ∈ ts, view db' (fold t.tableName) = none) ∧
    (∀ k, (∀ t ∈ ts, fold t.tableName ≠ k) → view db' k = view db k) ∧
    (∀ k, view db k = none → view db' k = none) ∧
    (fk = true → NoRef R db') := by
  induction ts generalizing db with
  | nil => cases h; exact ⟨by simp, fun _ _ => rfl, fun _ h => h, hI⟩
  | cons t ts ih =>
    obtain ⟨d1, h1, h2⟩ := run_cons h
    obtain ⟨-, e⟩ := drop_view h1
    rw [key_nm] at e
    obtain ⟨i1, i2, i3, i4⟩ := ih (fun hk => noRef_remove (hI hk) e) h2
    refine ⟨fun x hx => ?_, fun k hk => ?_, fun k hk => ?_, i4⟩
    · rcases List.mem_cons.1 hx with rfl | hx
      · exact i3 _ (by rw [e, put_self])
      · exact i1 x hx
    · rw [i2 k fun x hx => hk x (by simp [hx]), e, put_ne _ _ fun e => hk t (by simp) e.symm]
    · refine i3 k ?_
      rw [e]
      by_cases he : k = fold t.tableName
      · rw [he, put_self]
      · rw [put_ne _ _ he, hk]

/-- New tables. -/
theorem creates_view {R : Str → Prop} {ts : List Table} {db db' : Sch}
    (hI : fk = true → NoRef R db) (hd : fk = true → ∀ t ∈ ts, ∀ n, R n → ¬ References t n)
    (hx : ∀ t ∈ ts, ∀ x ∈ t.indexes, x.tableSchema = [] ∧ x.tableName = t.tableName)
    (h : run fk db (ts.flatMap createOf) = some db') :
    (∀ k, view db k ≠ none → view db' k = view db k) ∧
    (∀ k, (∀ t ∈ ts, fold t.tableName ≠ k) → view db' k = view db k) ∧
    (∀ t ∈ ts, view db (fold t.tableName) = none ∧
      ((made t).cols.map fun c => fold c.name).Nodup ∧
      ∃ f, view db' (fold t.tableName) = some (made t, f) ∧
        ∀ n x, f n = some x ↔ ∃ y ∈ t.indexes, fold y.indexName = n ∧ idxOfIndex y = x) ∧
    (fk = true → NoRef R db') := by
  induction ts generalizing db with
  | nil => cases h; exact ⟨fun _ _ => rfl, fun _ _ => rfl, by simp, hI⟩
  | cons t ts ih =>
    rw [List.flatMap_cons] at h
    obtain ⟨d1, h1, h2⟩ := run_split h
    obtain ⟨e1, e2, f, e3, e4⟩ := create_group (hx t (by simp)) h1
    obtain ⟨i1, i2, i3, i4⟩ := ih
      (fun hk => noRef_put (hI hk) (fun n hn => made_free (hd hk t (by simp) n hn)) e3)
      (fun hk x hx' => hd hk x (by simp [hx'])) (fun x hx' => hx x (by simp [hx'])) h2
    refine ⟨fun k hk => ?_, fun k hk => ?_, fun x hx' => ?_, i4⟩
    · have hne : k ≠ fold t.tableName := fun e => hk (e ▸ e1)
      have : view d1 k = view db k := by rw [e3, put_ne _ _ hne]
      rw [i1 k (by rw [this]; exact hk), this]
    · rw [i2 k fun x hx => hk x (by simp [hx]), e3, put_ne _ _ fun e => hk t (by simp) e.symm]
    · have hs : view d1 (fold t.tableName) = some (made t, f) := by rw [e3, put_self]
      rcases List.mem_cons.1 hx' with rfl | hx'
      · refine ⟨e1, e2, f, ?_, e4⟩
        rw [i1 _ (by rw [hs]; simp), hs]
      · obtain ⟨j1, j2⟩ := i3 x hx'
        have hne : fold x.tableName ≠ fold t.tableName := fun e => by
          rw [e, hs] at j1; cases j1
        refine ⟨?_, j2⟩
        rw [e3, put_ne _ _ hne] at j1
        exact j1

/-- Changed tables: `P` holds for each of them afterwards. -/
theorem changes_view {R : Str → Prop} {as : List AlterTable} {db db' : Sch}
    (Q : AlterTable → Table → Table → Prop) (P : Table → Table → Option (Shape × (Str → Option Idx)) → Prop)
    (hex : ∀ a ∈ as, ∃ s t, Q a s t)
    (hdest : ∀ a ∈ as, ∀ s t, Q a s t → fold t.tableName = fold a.destTable.tableName)
    (hstart : ∀ a ∈ as, ∀ s t, Q a s t → Start s (view db (fold t.tableName)))
    (hstep : ∀ a ∈ as, ∀ s t, Q a s t → ∀ d d' : Sch, (fk = true → NoRef R d) →
      Start s (view d (fold t.tableName)) → run fk d (changeOf a) = some d' →
      ∃ v, view d' = put (view d) (fold t.tableName) v ∧ P s t v ∧ (fk = true → NoRef R d'))
    (hn : (as.map fun a => fold a.destTable.tableName).Nodup)
    (hI : fk = true → NoRef R db) (h : run fk db (as.flatMap changeOf) = some db') :
    (∀ k, (∀ a ∈ as, fold a.destTable.tableName ≠ k) → view db' k = view db k) ∧
    ∀ a ∈ as, ∀ s t, Q a s t → P s t (view db' (fold t.tableName)) := by
  induction as generalizing db with
  | nil => cases h; exact ⟨fun _ _ => rfl, by simp⟩
  | cons a as ih =>
    rw [List.flatMap_cons] at h
    obtain ⟨d1, h1, h2⟩ := run_split h
    rw [List.map_cons, List.nodup_cons] at hn
    have hone : ∀ s t, Q a s t → ∃ v, view d1 = put (view db) (fold t.tableName) v ∧
        P s t v ∧ (fk = true → NoRef R d1) := fun s t hq =>
      hstep a (by simp) s t hq db d1 hI (hstart a (by simp) s t hq) h1
    obtain ⟨s0, t0, hq0⟩ := hex a (by simp)
    obtain ⟨v0, w1, w2, w3⟩ := hone s0 t0 hq0
    rw [hdest a (by simp) s0 t0 hq0] at w1
    have hne : ∀ b ∈ as, fold b.destTable.tableName ≠ fold a.destTable.tableName :=
      fun b hb e => hn.1 (List.mem_map.2 ⟨b, hb, e⟩)
    obtain ⟨i1, i2⟩ := ih (fun b hb => hex b (by simp [hb]))
      (fun b hb => hdest b (by simp [hb]))
      (fun b hb s t hq => by
        rw [w1, put_ne _ _ (by rw [hdest b (by simp [hb]) s t hq]; exact hne b hb)]
        exact hstart b (by simp [hb]) s t hq) (fun b hb => hstep b (by simp [hb])) hn.2 w3 h2
    refine ⟨fun k hk => ?_, fun b hb s t hq => ?_⟩
    · rw [i1 k fun b hb => hk b (by simp [hb]), w1, put_ne _ _ fun e => hk a (by simp) e.symm]
    · rcases List.mem_cons.1 hb with rfl | hb'
      · obtain ⟨v, e1, e2, -⟩ := hone s t hq
        rw [i1 _ (fun c hc => by rw [hdest b (by simp) s t hq]; exact hne c hc), e1, put_self]
        exact e2
      · exact i2 b hb' s t hq

theorem pragmas_view {copy : Bool} {v : Str} {db db' : Sch}
    (h : run fk db (pragmaOf copy v) = some db') : db' = db := by
  unfold pragmaOf at h
  split at h
  · obtain ⟨d, h1, h2⟩ := run_cons h
    cases h2
    exact pragma_view h1
  · cases h; rfl

theorem hasCopy_copies {as : List AlterTable} {b : Bool} (h : hasCopy as = some b) :
    ∀ a ∈ as, copies a ≠ none := by
  obtain ⟨bs, h', -⟩ := Option.map_eq_some_iff.1 h
  clear h
  induction as generalizing bs with
  | nil => simp
  | cons a as ih =>
    rw [List.mapM_cons] at h'
    obtain ⟨x, hx, h⟩ := Option.bind_eq_some_iff.1 h'
    obtain ⟨ys, hys, -⟩ := Option.bind_eq_some_iff.1 h
    intro c hc
    rcases List.mem_cons.1 hc with rfl | hc
    · rw [hx]; simp
    · exact ih ys hys c hc

section
variable {src dest : Catalog} {s d : Schema} (hs : SqliteOk src s) (hd : SqliteOk dest d)
include hs hd

/-- The differences of two tables. -/
theorem full_of_pair {p : Table × Table} (hp : p ∈ sqlitePairs s d) :
    Full p.1 p.2 (sqliteFullAlter (newCatalogCache (sqliteNameConstraints src))
      (newCatalogCache (sqliteNameConstraints dest)) (nameTable p.1) (nameTable p.2)) := by
  obtain ⟨m1, m2, -⟩ := mem_pairs hp
  have h1 : InCatalog (sqliteNameConstraints src) (nameTable p.1) :=
    ⟨_, hs.mem, List.mem_map.2 ⟨p.1, (List.mem_filter.1 m1).1, rfl⟩⟩
  have h2 : InCatalog (sqliteNameConstraints dest) (nameTable p.2) :=
    ⟨_, hd.mem, List.mem_map.2 ⟨p.2, (List.mem_filter.1 m2).1, rfl⟩⟩
  have hcol : ∀ t n, hasColumn (nameTable t) n = hasColumn t n := fun t n => by
    unfold hasColumn; rw [(live_name t).1]
  have hidx : ∀ t n, hasIndex (nameTable t) n = hasIndex t n := fun t n => by
    unfold hasIndex; rw [(live_name t).2]
  have hcom : ∀ a b, CatalogSpec.commonColumns (nameTable a) (nameTable b) =
      CatalogSpec.commonColumns a b := fun a b => by
    unfold CatalogSpec.commonColumns
    rw [(live_name a).1, (live_name b).1]
  refine ⟨rfl, rfl, ?_, ?_, ?_, ?_, ?_, ?_, ?_, rfl⟩
  · show surplusColumns _ _ _ = _
    rw [surplusColumns_eq hd.ok h2, (live_name p.1).1]
    simp only [hcol]
  · show missingColumns _ _ _ = _
    rw [missingColumns_eq hs.ok h1, (live_name p.2).1]
    simp only [hcol]
  · show surplusIndexes _ _ _ = _
    rw [surplusIndexes_eq hd.ok h2, (live_name p.1).2]
    simp only [hidx]
  · show missingIndexes _ _ _ = _
    rw [missingIndexes_eq hs.ok h1, (live_name p.2).2]
    simp only [hidx]
  · exact surplusConstraints_eq hd.ok h2 _
  · exact missingConstraints_eq hs.ok h1 _
  · show changedColumns _ _ _ _ _ = _
    unfold changedColumns
    rw [commonColumns_eq hs.ok h1, hcom]

/-- Every pair of tables is altered if there is a reason. -/
theorem alter_of_pair (a : AlterTable) :
    a ∈ (sqliteEvents src dest true).filterMap Ev.alter? ↔
      ∃ p ∈ sqlitePairs s d, a.worthKeeping = true ∧
        a = sqliteFullAlter (newCatalogCache (sqliteNameConstraints src))
          (newCatalogCache (sqliteNameConstraints dest)) (nameTable p.1) (nameTable p.2) := by
  have he : sqliteEvents src dest true = diffEvents .sqlite src dest true := rfl
  rw [he, sqlite_events hs hd, sqlite_alters_eq hs.ok hd.ok hs.mem hd.mem, sqlitePairs_name,
    List.mem_flatMap]
  constructor
  · rintro ⟨q, hq, ha⟩
    obtain ⟨p, hp, rfl⟩ := List.mem_map.1 hq
    refine ⟨p, hp, ?_⟩
    unfold sqliteAlterEvents at ha
    split at ha
    · rename_i hk
      rw [if_pos rfl] at ha
      simp only [List.filterMap_cons, Ev.alter?, List.filterMap_nil, List.mem_singleton] at ha
      subst ha
      exact ⟨hk, rfl⟩
    · cases ha
  · rintro ⟨p, hp, hk, rfl⟩
    refine ⟨_, List.mem_map.2 ⟨p, hp, rfl⟩, ?_⟩
    unfold sqliteAlterEvents
    rw [if_pos hk, if_pos rfl]
    simp [Ev.alter?]

/-- Every table that is missing is created. -/
theorem create_mem (drop : Bool) {t : Table} (ht : t ∈ sqliteTables d)
    (hno : (s.tables.filter fun x => !x.ignore).find? (fun x => x.tableName == t.tableName) = none) :
    nameTable t ∈ (sqliteEvents src dest drop).filterMap Ev.createTable? := by
  have he : sqliteEvents src dest drop = diffEvents .sqlite src dest drop := rfl
  rw [he, sqlite_events hs hd, sqliteSchemaEvents_eq hs.ok hd.ok hs.mem hd.mem]
  refine List.mem_filterMap.2 ⟨.createTable (nameTable t), List.mem_append_right _ ?_, rfl⟩
  refine List.mem_flatMap.2 ⟨nameTable t, ?_, ?_⟩
  · rw [sqliteTables_name]
    exact List.mem_map.2 ⟨t, ht, rfl⟩
  · have : ((s.tables.map nameTable).filter fun x => !x.ignore).find?
        (fun x => x.tableName == (nameTable t).tableName) = none := by
      rw [List.find?_eq_none] at hno ⊢
      intro x hx
      obtain ⟨h1, h2⟩ := List.mem_filter.1 hx
      obtain ⟨y, hy, rfl⟩ := List.mem_map.1 h1
      rw [(nameTable_fields y).2.1] at h2
      rw [(nameTable_fields y).1, (nameTable_fields t).1]
      exact hno y (List.mem_filter.2 ⟨hy, h2⟩)
    rw [this]
    exact List.mem_singleton.2 rfl

/-- Every surplus table is dropped. -/
theorem drop_mem {t : Table} (ht : t ∈ sqliteTables s) (hno : schemaHas d t.tableName = false) :
    nameTable t ∈ (sqliteEvents src dest true).filterMap Ev.dropTable? := by
  have he : sqliteEvents src dest true = diffEvents .sqlite src dest true := rfl
  rw [he, sqlite_events hs hd, sqliteSchemaEvents_eq hs.ok hd.ok hs.mem hd.mem]
  refine List.mem_filterMap.2 ⟨.dropTable (nameTable t), List.mem_append_left _ ?_, rfl⟩
  rw [if_pos rfl]
  refine List.mem_map.2 ⟨nameTable t, List.mem_filter.2 ⟨?_, ?_⟩, rfl⟩
  · rw [sqliteTables_name]
    exact List.mem_map.2 ⟨t, ht, rfl⟩
  · rw [schemaHas_name, (nameTable_fields t).1, hno]
    rfl

/-- The script of a migration, read back. -/
theorem migration_plan (drop : Bool) (hc : LiteSpec.Clear s d) (pre : Str)
    (files : List Files.File) (hf : migration pre src dest drop = some files) :
    ∃ copy, hasCopy ((sqliteEvents src dest drop).filterMap Ev.alter?) = some copy ∧
      LiteText.runScript (keywords .sqlite) [] (files.flatMap (·.2)) =
        some (planOf copy (sqliteEvents src dest drop)) := by
  obtain ⟨text, ht, hfiles⟩ := Option.map_eq_some_iff.1 hf
  have hcontent : files.flatMap (·.2) = text := by
    rw [← hfiles]
    split
    · rename_i h; rw [h]; rfl
    · simp
  obtain ⟨copy, hcopy, -⟩ := Option.map_eq_some_iff.1 ht
  refine ⟨copy, hcopy, ?_⟩
  have hlive : ∀ {x : Table}, x ∈ s.tables.filter (fun x => !x.ignore) →
      x ∈ s.tables ∧ x.ignore = false := fun h => by simpa using List.mem_filter.1 h
  have hreadable : ∀ x : Table, Readable x → Readable (nameTable x) := by
    intro x h
    unfold nameTable
    split
    · exact h
    · exact ⟨h.name, h.columns, h.indexes, h.triggers⟩
  obtain ⟨text', ht', hread⟩ := sqlite_reads_back (sqliteEvents src dest drop) copy hcopy
    (fun t h => by
      obtain ⟨-, x, hx, -, rfl⟩ := drop_facts hs hd drop h
      rw [(nameTable_fields x).1]
      have := List.mem_filter.1 hx
      simp only [Bool.and_eq_true, Bool.not_eq_true'] at this
      exact (hc.readable x this.1 this.2.1).name)
    (fun t h => by
      obtain ⟨x, hx, rfl⟩ := create_facts hs hd drop h
      exact hc.writable x hx)
    (fun a ha => by
      obtain ⟨p, hp, e1, e2, hD, h1, h2⟩ := alter_facts hs hd drop ha
      obtain ⟨m1, m2, -⟩ := mem_pairs hp
      refine ⟨e2 ▸ hc.writable _ m2, e1 ▸ hreadable _ (hc.readable _ (hlive m1).1 (hlive m1).2),
        ?_, h1, fun c hc => (hD.dropColumns c hc).1, hD.addColumns, h2⟩
      obtain ⟨n, hn⟩ := hc.common p hp
      refine ⟨n, ?_⟩
      unfold Copied at hn ⊢
      rw [e1, e2, (nameTable_fields p.1).2.2.1, (nameTable_fields p.2).2.2.1]
      exact hn)
  rw [ht] at ht'
  cases ht'
  rw [hcontent]
  exact hread

/-- No table refers to the temporary name of a table of the destination. -/
def _root_.LiteSchema.Apart (db : Sch) (d : Schema) : Prop :=
  ∀ t ∈ sqliteTables d,
    (∀ u U, db.table u = some U → U.free (fold (t.tableName ++ b!"_new"))) ∧
    ∀ x ∈ sqliteTables d, ¬ References x (fold (t.tableName ++ b!"_new"))

/-- The names of tables that may be rebuilt. -/
def Temp (d : Schema) (n : Str) : Prop := ∃ t ∈ sqliteTables d, n = fold (t.tableName ++ b!"_new")

/-- All changes: `F` gives the change of a pair of tables, `K` tells whether there is one, and `P`
holds for the tables afterwards. -/
theorem plan_views (drop : Bool) (hc : LiteSpec.Clear s d) (hw : ∀ t ∈ sqliteTables d, Whole t)
    (F : Table × Table → AlterTable) (K : Table × Table → Bool)
    (P : Table → Table → Option (Shape × (Str → Option Idx)) → Prop)
    (hap : ∀ a, a ∈ (sqliteEvents src dest drop).filterMap Ev.alter? ↔
      ∃ p ∈ sqlitePairs s d, K p = true ∧ a = F p)
    (hF : ∀ p ∈ sqlitePairs s d, (F p).destTable = nameTable p.2)
    (hstep : ∀ p ∈ sqlitePairs s d, copies (F p) ≠ none → ∀ d1 d2 : Sch,
      (fk = true → NoRef (Temp d) d1) → (fk = true → ∀ n, Temp d n → ¬ References p.2 n) →
      Start p.1 (view d1 (fold p.2.tableName)) → run fk d1 (changeOf (F p)) = some d2 →
      ∃ v, view d2 = put (view d1) (fold p.2.tableName) v ∧ P p.1 p.2 v ∧
        (fk = true → NoRef (Temp d) d2))
    (hsame : ∀ p ∈ sqlitePairs s d, K p = false → ∀ v, Start p.1 v → P p.1 p.2 v)
    {copy : Bool} (hcopy : hasCopy ((sqliteEvents src dest drop).filterMap Ev.alter?) = some copy)
    {db db' : Sch} (hdb : ∀ p ∈ sqlitePairs s d, Holds db p.1) (hfk : fk = true → Apart db d)
    (hrun : run fk db (planOf copy (sqliteEvents src dest drop)) = some db') :
    (∀ p ∈ sqlitePairs s d, P p.1 p.2 (view db' (fold p.2.tableName))) ∧
    (∀ t ∈ sqliteTables d, ((s.tables.filter fun x => !x.ignore).find? fun x =>
        x.tableName == t.tableName) = none → Good none t (view db' (fold t.tableName))) ∧
    (drop = true → ∀ x ∈ sqliteTables s, schemaHas d x.tableName = false →
      (∀ t ∈ sqliteTables d, fold t.tableName ≠ fold x.tableName) →
      db'.table (fold x.tableName) = none) ∧
    ∀ k, (∀ t ∈ sqliteTables d, fold t.tableName ≠ k) →
      (drop = true → ∀ x ∈ sqliteTables s, schemaHas d x.tableName = false →
        fold x.tableName ≠ k) → SameTable db db' k := by
  have hcp := hasCopy_copies hcopy
  have hcf := fun t => create_facts hs hd drop (t := t)
  have hdf := fun t => drop_facts hs hd drop (t := t)
  have hcm := fun t => create_mem hs hd drop (t := t)
  have hdm : drop = true → ∀ t ∈ sqliteTables s, schemaHas d t.tableName = false →
      nameTable t ∈ (sqliteEvents src dest drop).filterMap Ev.dropTable? := by
    rintro rfl t ht hno
    exact drop_mem hs hd ht hno
  have hnod := alters_nodup hs hd drop hc.destNames
  generalize sqliteEvents src dest drop = evs at *
  unfold planOf at hrun
  obtain ⟨d4, hrun, h5⟩ := run_split hrun
  have := pragmas_view h5
  subst this
  obtain ⟨d3, hrun, h4⟩ := run_split hrun
  obtain ⟨d2, hrun, h3⟩ := run_split hrun
  obtain ⟨d1, h1, h2⟩ := run_split hrun
  have := pragmas_view h1
  subst this
  have hI : fk = true → NoRef (Temp d) d1 := by
    rintro e u U hu n ⟨t, ht, rfl⟩
    exact (hfk e t ht).1 u U hu
  have hRef : fk = true → ∀ x ∈ sqliteTables d, ∀ n, Temp d n → ¬ References x n := by
    rintro e x hx n ⟨t, ht, rfl⟩
    exact (hfk e t ht).2 x hx
  -- a table that is in both is not dropped
  have hkeep : ∀ p ∈ sqlitePairs s d, ∀ t ∈ evs.filterMap Ev.dropTable?,
      fold t.tableName ≠ fold p.2.tableName := by
    intro p hp t ht e
    obtain ⟨m1, m2, m3⟩ := mem_pairs hp
    obtain ⟨-, x, hx, hno, rfl⟩ := hdf t ht
    rw [(nameTable_fields x).1, ← m3] at e
    have hx' := List.mem_filter.1 hx
    simp only [Bool.and_eq_true, Bool.not_eq_true'] at hx'
    have := nodup_inj hc.srcNames (List.mem_filter.2 ⟨hx'.1, by rw [hx'.2.1]; rfl⟩) m1 e
    subst this
    have m2 := List.mem_filter.1 m2
    simp only [Bool.and_eq_true, Bool.not_eq_true'] at m2
    simp only [schemaHas, List.any_eq_false] at hno
    exact hno p.2 m2.1 (by simp [m2.2.1, m3])
  have hstart : ∀ p ∈ sqlitePairs s d, Start p.1 (view d1 (fold p.2.tableName)) := by
    intro p hp
    obtain ⟨T, e1, e2, e3⟩ := hdb p hp
    rw [← (mem_pairs hp).2.2]
    refine ⟨T, _, view_some.2 ⟨e1, rfl⟩, e2, fun n x => ?_⟩
    rw [on_some]
    exact e3 n x
  obtain ⟨a1, a2, a3, a4⟩ := drops_view hI h2
  obtain ⟨b1, b2, b3, b4⟩ := creates_view a4
    (fun e t ht n hn href => by
      obtain ⟨x, hx, rfl⟩ := hcf t ht
      exact hRef e x hx n hn (references_name href))
    (fun t ht x hx => by
      obtain ⟨y, hy, rfl⟩ := hcf t ht
      exact ((whole_name (hw y hy)).indexes x hx).2) h3
  have hv2 : ∀ p ∈ sqlitePairs s d, view d2 (fold p.2.tableName) = view d1 (fold p.2.tableName) :=
    fun p hp => a2 _ (hkeep p hp)
  have hv3 : ∀ p ∈ sqlitePairs s d, view d3 (fold p.2.tableName) = view d1 (fold p.2.tableName) := by
    intro p hp
    rw [b1 _ _, hv2 p hp]
    rw [hv2 p hp]
    obtain ⟨T, f, e, -⟩ := hstart p hp
    rw [e]
    simp
  have hFn : ∀ p ∈ sqlitePairs s d,
      fold (F p).destTable.tableName = fold p.2.tableName := fun p hp => by
    rw [hF p hp, (nameTable_fields p.2).1]
  obtain ⟨c1, c2⟩ := changes_view (R := Temp d)
    (fun a x y => (x, y) ∈ sqlitePairs s d ∧ a = F (x, y)) P
    (fun a ha => by
      obtain ⟨p, hp, -, e⟩ := (hap a).1 ha
      exact ⟨p.1, p.2, hp, e⟩)
    (fun a ha x y hq => by
      obtain ⟨hp, rfl⟩ := hq
      exact (hFn _ hp).symm)
    (fun a ha x y hq => by
      obtain ⟨hp, rfl⟩ := hq
      rw [hv3 _ hp]
      exact hstart _ hp)
    (fun a ha x y hq e1 e2 h1 h2 h3 => by
      obtain ⟨hp, rfl⟩ := hq
      exact hstep _ hp (hcp _ ha) e1 e2 h1 (fun e => hRef e y (mem_pairs hp).2.1) h2 h3)
    hnod b4 h4
  -- the tables that are altered
  have hdest : ∀ a ∈ evs.filterMap Ev.alter?, ∃ p ∈ sqlitePairs s d,
      fold a.destTable.tableName = fold p.2.tableName := by
    intro a ha
    obtain ⟨p, hp, -, rfl⟩ := (hap a).1 ha
    exact ⟨p, hp, hFn p hp⟩
  have hpairsome : ∀ p ∈ sqlitePairs s d, view d2 (fold p.2.tableName) ≠ none := by
    intro p hp
    rw [hv2 p hp]
    obtain ⟨T, f, e, -⟩ := hstart p hp
    rw [e]
    simp
  refine ⟨fun p hp => ?_, fun t ht e => ?_, fun hdr x hx hno hnot => ?_, fun k hk1 hk2 => ?_⟩
  · cases hk : K p with
    | true => exact c2 _ ((hap _).2 ⟨_, hp, hk, rfl⟩) p.1 p.2 ⟨hp, rfl⟩
    | false =>
      rw [c1 _ fun a ha e => by
        obtain ⟨q, hq, hk', rfl⟩ := (hap a).1 ha
        rw [hFn q hq] at e
        have h2 := nodup_inj hc.destNames (mem_pairs hq).2.1 (mem_pairs hp).2.1 e
        have h1 := nodup_inj hc.srcNames (mem_pairs hq).1 (mem_pairs hp).1
          (by rw [(mem_pairs hq).2.2, (mem_pairs hp).2.2, h2])
        rw [Prod.ext h1 h2, hk] at hk'
        cases hk']
      rw [hv3 _ hp]
      exact hsame p hp hk _ (hstart _ hp)
  · obtain ⟨k1, k2, f, k3, k4⟩ := b3 _ (hcm t ht e)
    rw [(nameTable_fields t).1] at k1 k3
    rw [(nameTable_fields t).2.2.2.1] at k4
    rw [c1 _ fun a ha e => by
      obtain ⟨p, hp, e2⟩ := hdest a ha
      exact hpairsome p hp (by rw [← e2, e, k1])]
    exact ⟨_, f, k3, made_reached (hw t ht) _ k2, k4⟩
  · rw [← view_none, c1 _ fun a ha e => by
      obtain ⟨p, hp, e2⟩ := hdest a ha
      exact hnot p.2 (mem_pairs hp).2.1 (by rw [← e2, e]),
      b2 _ fun t ht => by
        obtain ⟨y, hy, rfl⟩ := hcf t ht
        rw [(nameTable_fields y).1]
        exact hnot y hy]
    have := a1 _ (hdm hdr x hx hno)
    rw [(nameTable_fields x).1] at this
    exact this
  · have : view db' k = view d1 k := by
      rw [c1 k fun a ha e => by
        obtain ⟨p, hp, e2⟩ := hdest a ha
        exact hk1 p.2 (mem_pairs hp).2.1 (by rw [← e2, e]),
        b2 k fun t ht => by
          obtain ⟨y, hy, rfl⟩ := hcf t ht
          rw [(nameTable_fields y).1]
          exact hk1 y hy,
        a2 k fun t ht => by
          obtain ⟨hdr, x, hx, hno, rfl⟩ := hdf t ht
          rw [(nameTable_fields x).1]
          exact hk2 hdr x hx hno]
    cases e : d1.table k with
    | none => exact ⟨by rw [e, ← view_none, this, view_none, e], fun T h => by rw [e] at h; cases h⟩
    | some T =>
      rw [view_some.2 ⟨e, rfl⟩] at this
      obtain ⟨h1, h2⟩ := view_some.1 this
      refine ⟨by rw [h1, e], fun _ _ i x => ?_⟩
      rw [← on_some, ← on_some, h2]

omit hs hd in
theorem Good.spelled {old : Option Table} {t : Table} {db : Sch}
    (h : Good old t (view db (fold t.tableName))) :
    ∃ T, db.table (fold t.tableName) = some T ∧ Reached old T t ∧ IndexesAre db t t.indexes := by
  obtain ⟨T, f, e1, e2, e3⟩ := h
  obtain ⟨e4, e5⟩ := view_some.1 e1
  refine ⟨T, e4, e2, fun n x => ?_⟩
  rw [← e3, ← e5, on_some]

/-- **C71 for SQLite**, with dropObjects: if all statements of the migration succeed, every table of
the destination (except virtual ones) has the columns, the constraints and the indexes that the
destination gives it, tables that are not in the destination are gone, and all other tables are what
they were.  Missing: what `Comparable` excludes, tables that are described by their own SQL, virtual
tables and triggers. -/
theorem sqlite_converges_partial (hc : LiteSpec.Clear s d)
    (hw : ∀ t ∈ sqliteTables d, Whole t) (hcmp : ∀ p ∈ sqlitePairs s d, Comparable p.1 p.2)
    (pre : Str) (files : List Files.File) (hf : migration pre src dest true = some files) :
    ∃ sts, LiteText.runScript (keywords .sqlite) [] (files.flatMap (·.2)) = some sts ∧
      ∀ (fk : Bool) (db db' : Sch), (∀ p ∈ sqlitePairs s d, Holds db p.1) →
        (fk = true → Apart db d) → run fk db sts = some db' →
        (∀ t ∈ sqliteTables d, ∃ T, db'.table (fold t.tableName) = some T ∧
          Reached ((s.tables.filter fun x => !x.ignore).find? fun x => x.tableName == t.tableName)
            T t ∧ IndexesAre db' t t.indexes) ∧
        (∀ x ∈ sqliteTables s, schemaHas d x.tableName = false →
          (∀ t ∈ sqliteTables d, fold t.tableName ≠ fold x.tableName) →
          db'.table (fold x.tableName) = none) ∧
        ∀ k, (∀ t ∈ sqliteTables d, fold t.tableName ≠ k) →
          (∀ x ∈ sqliteTables s, schemaHas d x.tableName = false → fold x.tableName ≠ k) →
          SameTable db db' k := by
  obtain ⟨copy, hcopy, hread⟩ := migration_plan hs hd true hc pre files hf
  refine ⟨_, hread, fun fk db db' hdb hfk hrun => ?_⟩
  obtain ⟨h1, h2, h3, h4⟩ := plan_views hs hd true hc hw
    (fun p => sqliteFullAlter (newCatalogCache (sqliteNameConstraints src))
      (newCatalogCache (sqliteNameConstraints dest)) (nameTable p.1) (nameTable p.2))
    (fun p => (sqliteFullAlter (newCatalogCache (sqliteNameConstraints src))
      (newCatalogCache (sqliteNameConstraints dest)) (nameTable p.1) (nameTable p.2)).worthKeeping)
    (fun x y => Good (some x) y)
    (fun a => by
      rw [alter_of_pair hs hd]
      constructor
      · rintro ⟨p, hp, hk, rfl⟩; exact ⟨p, hp, hk, rfl⟩
      · rintro ⟨p, hp, hk, rfl⟩; exact ⟨p, hp, hk, rfl⟩)
    (fun p hp => (full_of_pair hs hd hp).destTable)
    (fun p hp hcp d1 d2 hI hR hst hrun => change_good (full_of_pair hs hd hp) hcp
      (hw _ (mem_pairs hp).2.1) (hcmp p hp) hI ⟨p.2, (mem_pairs hp).2.1, rfl⟩ hR hst hrun)
    (fun p hp hk v hst => same_good (full_of_pair hs hd hp) hk (hw _ (mem_pairs hp).2.1)
      (hcmp p hp) hst) hcopy hdb hfk hrun
  refine ⟨fun t ht => Good.spelled ?_, h3 rfl, fun k hk1 hk2 => h4 k hk1 fun _ => hk2⟩
  cases e : (s.tables.filter fun x => !x.ignore).find? fun x => x.tableName == t.tableName with
  | none => exact h2 t ht e
  | some x =>
    refine h1 (x, t) ?_
    simp only [sqlitePairs, List.mem_filterMap, Option.map_eq_some_iff]
    exact ⟨t, ht, x, e, rfl⟩

end

end Sqddl.Sqlite
