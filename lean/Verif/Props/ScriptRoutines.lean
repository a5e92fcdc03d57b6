import Verif.Props.ScriptObjectsOthers
import Verif.Spec.ScriptRoutines

/-!
# C114: routines, and the other views and triggers, are reported as they were defined
-/

namespace Sqddl.Scripts
open OwnSpec ObjectSpec RoutineSpec

/-! ## Postgres -/

/-- C114: the routines of Postgres that are reported are those that are asked for and not of an extension,
each once, with definition, result and comment, if none is an aggregate and no other object with the
number of a routine has a comment or belongs to an extension. -/
theorem pg_routines_partial {f : Filter} {c : PgRoutines} (hf : OneOf f.schemas f.excludeSchemas)
    (ht : OneOf f.routines f.excludeRoutines) (hp : ∀ n ∈ c.namespaces, PlainSchema n.nspname) (hv : PgRoutineValid c)
    (ha : ∀ p ∈ c.procs, p.prokind ≠ 'a')
    (hc : ∀ d ∈ c.descriptions, ∀ p ∈ c.procs, d.objoid = p.oid → d.classoid = pgProcOid ∧ d.objsubid = 0)
    (hd : ∀ d ∈ c.depends, ∀ p ∈ c.procs, d.objid = p.oid → d.deptype = 'e' → d.classid = pgProcOid) :
    ∃ xs, pgRoutines f c = some xs ∧
      (∀ x ∈ xs, ∃ p ∈ c.procs, ∃ n ∈ c.namespaces, RoutineAsked f c n p ∧ RoutineShown c n p x) ∧
      (∀ p ∈ c.procs, ∀ n ∈ c.namespaces, RoutineAsked f c n p → ∃ x ∈ xs, RoutineShown c n p x) ∧
      (xs.map fun x => (x.routineSchema, x.routineName, x.identityArguments)).Nodup := by
  let all := pairs c.procs fun _ => c.namespaces
  let cond : PgProc × PgNamespace → Bool := fun y => pgRoutineShown f c y.2 y.1
  let out : PgProc × PgNamespace → Routine := fun y =>
    pgRoutineRow c y.2 y.1 (c.descriptions.find? fun d => d.objoid == y.1.oid)
  have hext : ∀ p ∈ c.procs, pgOfExtension c p = true ↔ OfExtension c p := by
    intro p hpm
    unfold pgOfExtension OfExtension
    simp only [List.any_eq_true, Bool.and_eq_true, beq_iff_eq]
    constructor
    · rintro ⟨e, he, d, hdm, ⟨h1, h2⟩, h3⟩
      exact ⟨e, he, d, hdm, hd d hdm p hpm h2 h3, h2, h1, h3⟩
    · rintro ⟨e, he, d, hdm, _, h2, h1, h3⟩
      exact ⟨e, he, d, hdm, ⟨h1, h2⟩, h3⟩
  have hasked : ∀ p ∈ c.procs, ∀ n ∈ c.namespaces, pgRoutineShown f c n p = true ↔ RoutineAsked f c n p := by
    intro p hpm n hn
    unfold pgRoutineShown RoutineAsked SchemaAsked
    rw [Bool.and_eq_true, Bool.and_eq_true, Bool.and_eq_true, beq_iff_eq, Bool.not_eq_true', ← Bool.not_eq_true,
      hext p hpm, pgShown_iff hf (hp n hn), passes_iff ht, and_assoc, and_assoc]
  have hrows : pgRoutines f c = some ((all.filter cond).map out) := by
    unfold pgRoutines
    rw [if_neg (by
      simp only [List.any_eq_true, Bool.and_eq_true, beq_iff_eq]
      rintro ⟨p, hpm, h, _⟩
      exact ha p hpm h), List.map_eq_flatMap, ← flatMap_if]
    simp only [all, flatMap_pairs]
    refine congrArg some (flatMap_congr fun p hpm => flatMap_congr fun n _ => ?_)
    rw [leftJoin_key hv.descriptions (p.oid, pgProcOid, 0) (fun d hdm h => by
      have h' : d.objoid = p.oid := by simpa using h
      obtain ⟨h1, h2⟩ := hc d hdm p hpm h'
      rw [h', h1, h2])]
    rfl
  have hshow : ∀ p ∈ c.procs, ∀ n, RoutineShown c n p (out (p, n)) := by
    intro p hpm n
    refine { schema := rfl, name := rfl, arguments := rfl, type := ?_, sql := rfl, result := rfl, comment := ?_ }
    · refine ⟨fun h => ?_, fun h => ?_, fun h => ?_⟩ <;> simp only [out, pgRoutineRow, h] <;> rfl
    · simp only [out, pgRoutineRow]
      cases hdf : c.descriptions.find? (fun d => d.objoid == p.oid) with
      | none =>
        refine .inr ⟨fun d hdm e => ?_, rfl⟩
        have := List.find?_eq_none.mp hdf d hdm
        simp [e.1] at this
      | some d =>
        have h1 := List.mem_of_find?_eq_some hdf
        have h2 : d.objoid = p.oid := by simpa using List.find?_some hdf
        obtain ⟨k1, k2⟩ := hc d h1 p hpm h2
        exact .inl ⟨d, h1, h2, k1, k2, rfl⟩
  have hmem : ∀ p n, (p, n) ∈ all.filter cond ↔ p ∈ c.procs ∧ n ∈ c.namespaces ∧ RoutineAsked f c n p := by
    intro p n
    rw [List.mem_filter, mem_pairs]
    constructor
    · rintro ⟨⟨h1, h2⟩, h3⟩
      exact ⟨h1, h2, (hasked p h1 n h2).mp h3⟩
    · rintro ⟨h1, h2, h3⟩
      exact ⟨⟨h1, h2⟩, (hasked p h1 n h2).mpr h3⟩
  refine ⟨_, hrows, ?_, ?_, ?_⟩
  · intro x hx
    obtain ⟨⟨p, n⟩, hy, rfl⟩ := List.mem_map.mp hx
    obtain ⟨h1, h2, h3⟩ := (hmem p n).mp hy
    exact ⟨p, h1, n, h2, h3, hshow p h1 n⟩
  · intro p h1 n h2 h3
    exact ⟨_, List.mem_map.mpr ⟨(p, n), (hmem p n).mpr ⟨h1, h2, h3⟩, rfl⟩, hshow p h1 n⟩
  · rw [List.map_map]
    have hnd : (all.filter cond).Nodup :=
      (nodup_pairs (nodup_of_map hv.routineIds) fun _ => nodup_of_map hv.schemaIds : all.Nodup).filter _
    refine map_nodup_of hnd ?_
    rintro ⟨p, n⟩ hy ⟨p', n'⟩ hz e
    obtain ⟨h1, h2, h3⟩ := (hmem p n).mp hy
    obtain ⟨k1, k2, k3⟩ := (hmem p' n').mp hz
    simp only [Function.comp, out, pgRoutineRow, Prod.mk.injEq] at e
    have en := map_nodup_inj hv.schemaNames h2 k2 e.1
    subst en
    have ep := map_nodup_inj hv.signatures h1 k1 (by simp only [← h3.1, ← k3.1, e.2.1, e.2.2])
    rw [ep]

/-- C114: the extensions that are reported are those that are asked for, each once. -/
theorem pg_extensions {incl excl : List Str} {c : PgRoutines} (h : OneOf incl excl)
    (hn : (c.extensions.map (·.name)).Nodup) :
    (∀ s, s ∈ pgExtensions incl excl c ↔ (∃ e ∈ c.extensions, e.name = s) ∧ Wanted incl excl s) ∧
    (pgExtensions incl excl c).Nodup := by
  constructor
  · intro s
    unfold pgExtensions
    simp only [List.mem_map, List.mem_filter, passes_iff h]
    constructor
    · rintro ⟨e, ⟨h1, h2⟩, rfl⟩; exact ⟨⟨e, h1, rfl⟩, h2⟩
    · rintro ⟨⟨e, h1, rfl⟩, h2⟩; exact ⟨e, ⟨h1, h2⟩, rfl⟩
  · unfold pgExtensions
    refine map_nodup_of ((nodup_of_map hn).filter _) ?_
    intro i hi j hj e
    exact map_nodup_inj hn (List.mem_filter.mp hi).1 (List.mem_filter.mp hj).1 e

/-! ## MySQL -/

/-- C114: the triggers of MySQL that are reported are those of the tables that are asked for, each once,
with statement, time and event. -/
theorem mysql_triggers {f : Filter} {rows : List MyTriggerRow} (hf : OneOf f.schemas f.excludeSchemas)
    (ht : OneOf f.tables f.excludeTables) (hn : (rows.map fun g => (g.schema, g.name)).Nodup) :
    (∀ x, x ∈ myTriggers f rows ↔ ∃ g ∈ rows, (f.system = true ∨ ¬ MyOwn g.schema) ∧
      Wanted f.schemas f.excludeSchemas g.schema ∧ Wanted f.tables f.excludeTables g.table ∧
      x = { tableSchema := g.schema, tableName := g.table, triggerName := g.name, sql := g.statement,
            attrs := [(b!"actionTiming", g.timing), (b!"eventManipulation", g.event)] }) ∧
    ((myTriggers f rows).map fun x => (x.tableSchema, x.triggerName)).Nodup := by
  constructor
  · intro x
    unfold myTriggers
    simp only [List.mem_map, List.mem_filter, Bool.and_eq_true, myShown_iff hf, passes_iff ht]
    constructor
    · rintro ⟨g, ⟨h1, ⟨h2, h3⟩, h4⟩, rfl⟩; exact ⟨g, h1, h2, h3, h4, rfl⟩
    · rintro ⟨g, h1, h2, h3, h4, rfl⟩; exact ⟨g, ⟨h1, ⟨h2, h3⟩, h4⟩, rfl⟩
  · unfold myTriggers
    rw [List.map_map]
    refine map_nodup_of ((nodup_of_map hn).filter _) ?_
    intro i hi j hj e
    exact map_nodup_inj hn (List.mem_filter.mp hi).1 (List.mem_filter.mp hj).1 e

/-! ## SQLite -/

/-- what is not written as a table is shown by its name -/
theorem liteShown_iff {system : Bool} {m : LiteObject} (hn : PlainTable m.tblName)
    (hq : (m.sql.take 14).map Go.lowerC ≠ b!"create table '") :
    liteShown system m = true ↔ system = true ∨ ¬ LiteOwn m.tblName := by
  have hlike : like Go.lowerC b!"CREATE TABLE '%" m.sql = false := by
    by_cases h : like Go.lowerC b!"CREATE TABLE '%" m.sql = true
    · exact absurd ((like_prefix Go.lowerC (lit := b!"CREATE TABLE '") (by decide) m.sql).mp h).2 hq
    · simpa using h
  unfold liteShown
  rw [hlike, Bool.or_eq_true, Bool.not_false, Bool.and_true, Bool.not_eq_true', notLite_iff hn]

/-- C114: the triggers of SQLite that are reported are those of the tables and views that are asked for,
each once, with its definition, if no name begins with sqlite but not with sqlite_. Whether it is one of a
view is not said. -/
theorem sqlite_triggers_partial {f : Filter} {rows : List LiteObject} (ht : OneOf f.tables f.excludeTables)
    (hn : ∀ m ∈ rows, PlainTable m.tblName)
    (hq : ∀ m ∈ rows, m.type = b!"trigger" → (m.sql.take 14).map Go.lowerC ≠ b!"create table '")
    (hu : (rows.map fun m => (m.type, m.name)).Nodup) :
    (∀ x, x ∈ liteTriggers f rows ↔ ∃ m ∈ rows, m.type = b!"trigger" ∧ (f.system = true ∨ ¬ LiteOwn m.tblName) ∧
      Wanted f.tables f.excludeTables m.tblName ∧
      x = { tableName := m.tblName, triggerName := m.name, sql := m.sql ++ b!";" }) ∧
    ((liteTriggers f rows).map (·.triggerName)).Nodup := by
  constructor
  · intro x
    unfold liteTriggers
    simp only [List.mem_map, List.mem_filter, Bool.and_eq_true, beq_iff_eq, passes_iff ht]
    constructor
    · rintro ⟨m, ⟨h1, ⟨h2, h3⟩, h4⟩, rfl⟩
      exact ⟨m, h1, h2, (liteShown_iff (hn m h1) (hq m h1 h2)).mp h3, h4, rfl⟩
    · rintro ⟨m, h1, h2, h3, h4, rfl⟩
      exact ⟨m, ⟨h1, ⟨h2, (liteShown_iff (hn m h1) (hq m h1 h2)).mpr h3⟩, h4⟩, rfl⟩
  · unfold liteTriggers
    rw [List.map_map]
    refine map_nodup_of ((nodup_of_map hu).filter _) ?_
    intro i hi j hj e
    obtain ⟨h1, h2⟩ := List.mem_filter.mp hi
    obtain ⟨k1, k2⟩ := List.mem_filter.mp hj
    simp only [Bool.and_eq_true, beq_iff_eq] at h2 k2
    exact map_nodup_inj hu h1 k1 (by simp only [h2.1.1, k2.1.1]; exact congrArg _ e)

/-- C114: the views of SQLite that are reported are those that are asked for, each once, with its
definition and its columns and their types, if no name begins with sqlite but not with sqlite_. -/
theorem sqlite_views_partial {f : ObjFilter} {columns : Str → List (Str × Str)} {rows : List LiteObject}
    (ht : OneOf f.views f.excludeViews) (hn : ∀ m ∈ rows, PlainTable m.tblName)
    (hq : ∀ m ∈ rows, m.type = b!"view" → (m.sql.take 14).map Go.lowerC ≠ b!"create table '")
    (hc : ∀ m ∈ rows, m.type = b!"view" → columns m.tblName ≠ [])
    (hu : (rows.map fun m => (m.type, m.name)).Nodup) (hname : ∀ m ∈ rows, m.type = b!"view" → m.name = m.tblName) :
    (∀ x, x ∈ liteViews f columns rows ↔ ∃ m ∈ rows, m.type = b!"view" ∧ (f.system = true ∨ ¬ LiteOwn m.tblName) ∧
      Wanted f.views f.excludeViews m.tblName ∧
      x = { viewName := m.name, sql := m.sql ++ b!";", columns := (columns m.name).map (·.1),
            columnTypes := (columns m.name).map (·.2) }) ∧
    ((liteViews f columns rows).map (·.viewName)).Nodup := by
  constructor
  · intro x
    unfold liteViews
    simp only [List.mem_map, List.mem_filter, Bool.and_eq_true, beq_iff_eq, passes_iff ht, Bool.not_eq_true',
      List.isEmpty_eq_false_iff]
    constructor
    · rintro ⟨m, ⟨h1, ⟨⟨h2, h3⟩, h4⟩, h5⟩, rfl⟩
      exact ⟨m, h1, h2, (liteShown_iff (hn m h1) (hq m h1 h2)).mp h3, h4, by rw [hname m h1 h2]⟩
    · rintro ⟨m, h1, h2, h3, h4, rfl⟩
      exact ⟨m, ⟨h1, ⟨⟨h2, (liteShown_iff (hn m h1) (hq m h1 h2)).mpr h3⟩, h4⟩, hc m h1 h2⟩, by rw [hname m h1 h2]⟩
  · unfold liteViews
    rw [List.map_map]
    refine map_nodup_of ((nodup_of_map hu).filter _) ?_
    intro i hi j hj e
    obtain ⟨h1, h2⟩ := List.mem_filter.mp hi
    obtain ⟨k1, k2⟩ := List.mem_filter.mp hj
    simp only [Bool.and_eq_true, beq_iff_eq] at h2 k2
    refine map_nodup_inj hu h1 k1 ?_
    simp only [h2.1.1.1, k2.1.1.1, hname i h1 h2.1.1.1, hname j k1 k2.1.1.1]
    exact congrArg _ e

/-! ## SQL Server -/

/-- C114: the views of SQL Server that are reported are those that are asked for, each once, with its
definition and its columns in their order, if none is encrypted. -/
theorem sqlserver_views_partial {fold : Char → Char} {shipped : MsTrigObject → Prop} {f : ObjFilter}
    {objects : List MsTrigObject} {cols : List MsViewCol} (hf : OneOf f.schemas f.excludeSchemas)
    (ht : OneOf f.views f.excludeViews)
    (hn : ∀ v ∈ objects, shipped v ↔ Longer fold b!"spt" v.name ∨ Longer fold b!"msreplication" v.name)
    (hm : ∀ v ∈ objects, v.type = b!"V" → ∃ d, v.module = some (some d))
    (hcol : ∀ v ∈ objects, v.type = b!"V" → ∃ k ∈ cols, k.table = v.id)
    (hk : (cols.map fun k => (k.table, k.number)).Nodup)
    (hname : (objects.map fun v => (v.schema, v.name)).Nodup) :
    ∃ xs, msViews fold f objects cols = some xs ∧
      (∀ x ∈ xs, ∃ v ∈ objects, MsViewAsked shipped f v ∧ MsViewIs cols v x) ∧
      (∀ v ∈ objects, MsViewAsked shipped f v → ∃ x ∈ xs, MsViewIs cols v x) ∧
      (xs.map fun x => (x.viewSchema, x.viewName)).Nodup := by
  have hshown : ∀ v ∈ objects, msViewShown fold f v = true ↔ MsViewAsked shipped f v := by
    intro v h
    have l1 : like fold b!"spt_%" v.name = true ↔ Longer fold b!"spt" v.name :=
      like_more fold (lit := b!"spt") (by decide) v.name
    have l2 : like fold b!"msreplication_%" v.name = true ↔ Longer fold b!"msreplication" v.name :=
      like_more fold (lit := b!"msreplication") (by decide) v.name
    unfold msViewShown MsViewAsked
    simp only [Bool.and_eq_true, Bool.or_eq_true, Bool.not_eq_true', ← Bool.not_eq_true, beq_iff_eq, l1, l2,
      passes_iff hf, passes_iff ht, hn v h, not_or, and_assoc]
  let groups : List (Nat × List MsViewCol) := grouped (cols.map fun k => (k.table, k.number, k))
  obtain ⟨g1, g2, g3⟩ : (∀ x ∈ groups, ∃ zs : List MsViewCol, zs ≠ [] ∧ (∀ y, y ∈ zs ↔ y ∈ cols ∧ y.table = x.1) ∧
      zs.Pairwise (fun a b : MsViewCol => a.number < b.number) ∧ x.2 = zs.map id) ∧
      (∀ y ∈ cols, ∃ x ∈ groups, x.1 = y.table) ∧ (groups.map fun x : Nat × List MsViewCol => x.1).Nodup :=
    grouped_sorted (ys := cols) (key := (·.table)) (num := (·.number)) (out := id) (nodup_of_map hk)
      fun y hy z hz e1 e2 => map_nodup_inj hk hy hz (by simp only [e1, e2])
  let all := pairs objects fun _ => groups
  let cond : MsTrigObject × Nat × List MsViewCol → Bool := fun y => y.2.1 == y.1.id && msViewShown fold f y.1
  let out : MsTrigObject × Nat × List MsViewCol → View := fun y =>
    msViewRow y.1 y.2.2 ((y.1.module.getD none).getD [])
  have hrows : msViewRows fold f objects cols = ((all.filter cond).map out).map some := by
    unfold msViewRows
    have e : ((all.filter cond).map out).map some = all.flatMap fun y => if cond y = true then [some (out y)] else [] := by
      rw [flatMap_if, List.map_map, List.map_eq_flatMap]
      rfl
    rw [e, flatMap_pairs]
    refine flatMap_congr fun v hvm => flatMap_congr fun g _ => ?_
    by_cases h : (g.1 == v.id && msViewShown fold f v) = true
    · rw [if_pos h, if_pos h]
      rw [Bool.and_eq_true] at h
      obtain ⟨d, hd⟩ := hm v hvm ((hshown v hvm).mp h.2).1
      simp [out, hd]
    · rw [if_neg h, if_neg h]
  have hmem : ∀ v g, (v, g) ∈ all.filter cond ↔ v ∈ objects ∧ g ∈ groups ∧ g.1 = v.id ∧ MsViewAsked shipped f v := by
    intro v g
    rw [List.mem_filter, mem_pairs]
    simp only [cond, Bool.and_eq_true, beq_iff_eq]
    constructor
    · rintro ⟨⟨h1, h2⟩, h3, h4⟩
      exact ⟨h1, h2, h3, (hshown v h1).mp h4⟩
    · rintro ⟨h1, h2, h3, h4⟩
      exact ⟨⟨h1, h2⟩, h3, (hshown v h1).mpr h4⟩
  have hshow : ∀ v g, (v, g) ∈ all.filter cond → MsViewIs cols v (out (v, g)) := by
    intro v g h
    obtain ⟨h1, h2, h3, h4⟩ := (hmem v g).mp h
    obtain ⟨d, hd⟩ := hm v h1 h4.1
    obtain ⟨zs, _, z2, z3, z4⟩ := g1 g h2
    rw [List.map_id] at z4
    refine ⟨rfl, rfl, by simp [out, msViewRow, hd], zs, ?_, z3, ?_, ?_⟩
    · intro k; rw [z2, h3]
    · simp only [out, msViewRow, z4]
    · simp only [out, msViewRow, z4]
  refine ⟨(all.filter cond).map out, ?_, ?_, ?_, ?_⟩
  · unfold msViews
    rw [hrows, if_neg (by simp), List.filterMap_map]
    simp
  · intro x hx
    obtain ⟨⟨v, g⟩, h, rfl⟩ := List.mem_map.mp hx
    obtain ⟨h1, _, _, h4⟩ := (hmem v g).mp h
    exact ⟨v, h1, h4, hshow v g h⟩
  · intro v h1 h4
    obtain ⟨k, hkm, e⟩ := hcol v h1 h4.1
    obtain ⟨g, hg, eg⟩ := g2 k hkm
    have h := (hmem v g).mpr ⟨h1, hg, eg.trans e, h4⟩
    exact ⟨_, List.mem_map.mpr ⟨(v, g), h, rfl⟩, hshow v g h⟩
  · rw [List.map_map]
    have hnd : (all.filter cond).Nodup :=
      (nodup_pairs (nodup_of_map hname) fun _ => nodup_of_map g3 : all.Nodup).filter _
    refine map_nodup_of hnd ?_
    rintro ⟨v, g⟩ hy ⟨v', g'⟩ hz e
    obtain ⟨h1, h2, h3, _⟩ := (hmem v g).mp hy
    obtain ⟨k1, k2, k3, _⟩ := (hmem v' g').mp hz
    have ev : v = v' := map_nodup_inj hname h1 k1 e
    subst ev
    have eg : g = g' := map_nodup_inj g3 h2 k2 (h3.trans k3.symm)
    rw [eg]

end Sqddl.Scripts
