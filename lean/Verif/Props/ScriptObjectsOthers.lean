import Verif.Props.ScriptObjectsViews
import Verif.Props.ScriptColumnsMysql
import Verif.Props.ScriptIndexesSqlserver

/-!
# C113: the views of MySQL and the triggers of SQL Server are reported as they were defined
-/

namespace Sqddl.Scripts
open OwnSpec ObjectSpec ColumnSpec

/-! ## MySQL -/

/-- C113: the views of MySQL that are reported are those that are asked for, each once, with its
definition and its columns and their types in their order. -/
theorem mysql_views {f : ObjFilter} {db : List MyTab} {views : List MyViewRow} {tables : List (Str × Str × Str)}
    {cols : List MyCol} (definition : MyTab → Str) (hf : OneOf f.schemas f.excludeSchemas)
    (ht : OneOf f.views f.excludeViews) (hs : MyColShows db tables cols)
    (hviews : views.Perm (myViewRows definition db)) (hn : (db.map fun t => (t.schema, t.name)).Nodup)
    (hne : ∀ t ∈ db, t.columns ≠ []) :
    (∀ x, x ∈ myViews f views cols ↔ ∃ t ∈ db, MyViewAsked f t ∧
      x = { viewSchema := t.schema, viewName := t.name, sql := definition t, columns := t.columns.map (·.name),
            columnTypes := t.columns.map (·.type) }) ∧
    ((myViews f views cols).map fun x => (x.viewSchema, x.viewName)).Nodup := by
  have hnd : db.Nodup := nodup_of_map hn
  let group : MyTab → (Str × Str) × List MyCol := fun t => ((t.schema, t.name), (t.columns.zipIdx 1).map (myColRow t))
  have hg : (grouped (cols.map fun r => ((r.schema, r.table), r.ordinal, r))).Perm (db.map group) := by
    refine grouped_perm 1 ?_ ?_ ?_
    · rw [List.map_map]; exact hn
    · intro i hi
      obtain ⟨t, h, rfl⟩ := List.mem_map.mp hi
      have := hne t h
      simpa [group] using this
    · refine (hs.cols.map _).trans (.of_eq ?_)
      rw [List.map_flatMap, List.flatMap_map]
      refine flatMap_congr fun t _ => ?_
      unfold spread
      simp only [group, numbered_of_zipIdx, List.map_map]
      rfl
  let sel : MyTab → Bool := fun t =>
    t.type == b!"VIEW" && (myShown f.toFilter t.schema && passes f.views f.excludeViews t.name)
  let view : MyTab → View := fun t =>
    { viewSchema := t.schema, viewName := t.name, sql := definition t, columns := t.columns.map (·.name)
      columnTypes := t.columns.map (·.type) }
  have hsel : ∀ t, sel t = true ↔ MyViewAsked f t := by
    intro t
    simp only [sel, MyViewAsked, Bool.and_eq_true, beq_iff_eq, myShown_iff hf, passes_iff ht, and_assoc]
  have hp : (myViews f views cols).Perm ((db.filter sel).map view) := by
    unfold myViews
    refine (hviews.flatMap_right _).trans ?_
    unfold myViewRows
    have e : (db.filter sel).map view = db.flatMap fun t => if sel t = true then [view t] else [] := by
      rw [flatMap_if, List.map_eq_flatMap]
    rw [e, List.flatMap_map, ← flatMap_if]
    refine flatMap_perm fun t hmem => ?_
    by_cases hty : (t.type == b!"VIEW") = true
    · rw [if_pos hty]
      refine (hg.flatMap_right _).trans (.of_eq ?_)
      rw [List.flatMap_map, flatMap_only hmem hnd]
      · simp only [group, sel, hty, Bool.true_and, beq_self_eq_true]
        by_cases h : (myShown f.toFilter t.schema && passes f.views f.excludeViews t.name) = true
        · rw [if_pos h, if_pos h]
          have e1 : ((t.columns.zipIdx 1).map (myColRow t)).map (·.name) = t.columns.map (·.name) := by
            rw [List.map_map]
            refine Eq.trans ?_ (congrArg (·.map (·.name)) (List.zipIdx_map_fst 1 t.columns))
            rw [List.map_map]
            rfl
          have e2 : ((t.columns.zipIdx 1).map (myColRow t)).map (·.type) = t.columns.map (·.type) := by
            rw [List.map_map]
            refine Eq.trans ?_ (congrArg (·.map (·.type)) (List.zipIdx_map_fst 1 t.columns))
            rw [List.map_map]
            rfl
          rw [e1, e2]
        · rw [if_neg h, if_neg h]
      · intro j hj hjt
        refine if_neg fun h => hjt ?_
        simp only [group, Bool.and_eq_true, beq_iff_eq] at h
        exact map_nodup_inj hn hj hmem h.1.1
    · rw [if_neg hty, if_neg (by simp [sel, hty])]
  constructor
  · intro x
    rw [hp.mem_iff, List.mem_map]
    constructor
    · rintro ⟨t, h, rfl⟩
      rw [List.mem_filter, hsel] at h
      exact ⟨t, h.1, h.2, rfl⟩
    · rintro ⟨t, h1, h2, rfl⟩
      exact ⟨t, List.mem_filter.mpr ⟨h1, (hsel t).mpr h2⟩, rfl⟩
  · refine (hp.map _).nodup_iff.mpr ?_
    rw [List.map_map]
    refine map_nodup_of (hnd.filter _) ?_
    intro i hi j hj e
    exact map_nodup_inj hn (List.mem_filter.mp hi).1 (List.mem_filter.mp hj).1 e

/-! ## SQL Server -/

/-- C113: the triggers of SQL Server that are reported are those of the tables and views that are asked
for, with their definitions, if no views are listed and no trigger is encrypted. -/
theorem sqlserver_triggers_partial {fold : Char → Char} {shipped : MsTrigObject → Prop} {f : ObjFilter}
    {objects : List MsTrigObject} (hf : OneOf f.schemas f.excludeSchemas) (ht : OneOf f.tables f.excludeTables)
    (hw : f.views = [] ∧ f.excludeViews = [])
    (hn : ∀ t ∈ objects, shipped t ↔ Longer fold b!"spt" t.name ∨ Longer fold b!"msreplication" t.name)
    (hm : ∀ g ∈ objects, g.type = b!"TR" → ∃ d, g.module = some (some d))
    (hid : (objects.map (·.id)).Nodup) (hname : (objects.map fun g => (g.schema, g.name)).Nodup)
    (hschema : ∀ g ∈ objects, ∀ t ∈ objects, g.type = b!"TR" → t.id = g.parent → g.schema = t.schema) :
    ∃ xs, msTriggers fold f objects = some xs ∧
      (∀ x, x ∈ xs ↔ ∃ g ∈ objects, ∃ t ∈ objects, ∃ d, MsTriggerAsked shipped f t g ∧ g.module = some (some d) ∧
        x.tableSchema = t.schema ∧ x.tableName = t.name ∧ x.triggerName = g.name ∧
        (x.isViewTrigger = true ↔ t.type = b!"V") ∧ x.sql = d ∧
        x.attrs = [] ∧ x.comment = [] ∧ x.ignore = false) ∧
      (xs.map fun x => (x.tableSchema, x.triggerName)).Nodup := by
  have hshown : ∀ t ∈ objects, ∀ g, ((t.id == g.parent && g.type == b!"TR" && msTriggerShown fold f t) = true ↔
      MsTriggerAsked shipped f t g) := by
    intro t h g
    have l1 : like fold b!"spt_%" t.name = true ↔ Longer fold b!"spt" t.name :=
      like_more fold (lit := b!"spt") (by decide) t.name
    have l2 : like fold b!"msreplication_%" t.name = true ↔ Longer fold b!"msreplication" t.name :=
      like_more fold (lit := b!"msreplication") (by decide) t.name
    have l3 : passes f.views f.excludeViews t.name = true := by
      unfold passes
      rw [if_neg (by simp [hw.1]), if_neg (by simp [hw.2])]
    unfold msTriggerShown MsTriggerAsked
    rw [l3, Bool.and_true]
    simp only [Bool.and_eq_true, Bool.or_eq_true, Bool.not_eq_true', ← Bool.not_eq_true, beq_iff_eq, l1, l2,
      passes_iff hf, passes_iff ht, hn t h, not_or, and_assoc]
    grind
  let text : MsTrigObject → Str := fun g => (g.module.getD none).getD []
  let cond : MsTrigObject × MsTrigObject → Bool := fun y =>
    y.2.id == y.1.parent && y.1.type == b!"TR" && msTriggerShown fold f y.2
  let all := pairs objects fun _ => objects
  let out : MsTrigObject × MsTrigObject → Trigger := fun y => msTriggerRow y.2 y.1 (text y.1)
  have hrows : msTriggerRows fold f objects = ((all.filter cond).map out).map some := by
    unfold msTriggerRows
    rw [List.map_map, List.map_eq_flatMap, ← flatMap_if, flatMap_pairs]
    refine flatMap_congr fun g hg => flatMap_congr fun t htm => ?_
    by_cases h : (t.id == g.parent && g.type == b!"TR" && msTriggerShown fold f t) = true
    · rw [if_pos h, if_pos h]
      obtain ⟨d, hd⟩ := hm g hg ((hshown t htm g).mp h).1
      simp [out, text, hd]
    · rw [if_neg h, if_neg h]
  refine ⟨(all.filter cond).map out, ?_, ?_, ?_⟩
  · unfold msTriggers
    rw [hrows, if_neg (by simp), List.filterMap_map]
    simp
  · intro x
    constructor
    · intro hx
      obtain ⟨⟨g, t⟩, h, rfl⟩ := List.mem_map.mp hx
      obtain ⟨h1, h2⟩ := List.mem_filter.mp h
      obtain ⟨hg, htm⟩ := mem_pairs.mp h1
      have ha := (hshown t htm g).mp h2
      obtain ⟨d, hd⟩ := hm g hg ha.1
      refine ⟨g, hg, t, htm, d, ha, hd, rfl, rfl, rfl, ?_, ?_, rfl, rfl, rfl⟩
      · simp [out, msTriggerRow]
      · simp [out, msTriggerRow, text, hd]
    · rintro ⟨g, hg, t, htm, d, ha, hd, e1, e2, e3, e4, e5, e6, e7, e8⟩
      refine List.mem_map.mpr ⟨(g, t), List.mem_filter.mpr ⟨mem_pairs.mpr ⟨hg, htm⟩, (hshown t htm g).mpr ha⟩, ?_⟩
      obtain ⟨x1, x2, x3, x4, x5, x6, x7, x8⟩ := x
      simp only at e1 e2 e3 e4 e5 e6 e7 e8
      subst e1 e2 e3 e5 e6 e7 e8
      have e9 : x4 = (t.type == b!"V") := by
        rw [Bool.eq_iff_iff, e4, beq_iff_eq]
      simp [out, msTriggerRow, text, hd, e9]
  · rw [List.map_map]
    refine map_nodup_of ((nodup_pairs (nodup_of_map hid) fun _ => nodup_of_map hid).filter _) ?_
    rintro ⟨g, t⟩ h ⟨g', t'⟩ h' e
    obtain ⟨h1, h2⟩ := List.mem_filter.mp h
    obtain ⟨h3, h4⟩ := List.mem_filter.mp h'
    obtain ⟨hg, htm⟩ := mem_pairs.mp h1
    obtain ⟨hg', htm'⟩ := mem_pairs.mp h3
    have ha := (hshown t htm g).mp h2
    have ha' := (hshown t' htm' g').mp h4
    have e1 : t.schema = t'.schema := congrArg (·.1) e
    have e2 : g.name = g'.name := congrArg (·.2) e
    have eg : g = g' := map_nodup_inj hname hg hg' (by
      simp only [hschema g hg t htm ha.1 ha.2.1, hschema g' hg' t' htm' ha'.1 ha'.2.1, e1, e2])
    subst eg
    have et : t = t' := map_nodup_inj hid htm htm' (ha.2.1.trans ha'.2.1.symm)
    rw [et]

end Sqddl.Scripts
