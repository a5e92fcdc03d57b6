import Verif.Props.ScriptRoutines
import Verif.Props.Introspect
import Verif.Spec.ScriptStored

/-!
# C115: the routines of MySQL and SQL Server are reported as they were defined
-/

namespace Sqddl.Scripts
open OwnSpec StoredSpec Introspect

theorem unixLines_same (s : Str) : SameLines s (unixLines s) := by
  unfold unixLines
  induction h : s.length using Nat.strongRecOn generalizing s with
  | ind n ih =>
    match s with
    | [] => exact .nil
    | [c] => exact .other (by rintro ⟨_, h⟩; simp at h) .nil
    | c :: e :: r =>
      by_cases hc : c = '\r' ∧ e = '\n'
      · obtain ⟨rfl, rfl⟩ := hc
        exact .windows (ih r.length (by simp at h; omega) r rfl)
      · have : Go.replacePair '\r' '\n' '\n' (c :: e :: r) = c :: Go.replacePair '\r' '\n' '\n' (e :: r) := by
          simp [Go.replacePair, hc]
        rw [this]
        refine .other ?_ (ih (e :: r).length (by simp at h ⊢; omega) (e :: r) rfl)
        rintro ⟨h1, h2⟩
        exact hc ⟨h1, by simpa using (List.cons_prefix_cons.mp h2).1.symm⟩

theorem readRows_some {α β : Type} (scan : α → β) (rs : List α) :
    query (fun r => some (scan r)) (some { rows := rs.map some }) = .ok (rs.map scan) := by
  rw [query_ok]
  exact ⟨rs, rfl, by rw [List.map_map]; rfl⟩

theorem readRows_none {α β : Type} (scan : α → β) {rows : List (Option α)} (h : none ∈ rows) :
    query (fun r => some (scan r)) (some { rows := rows }) = .err := by
  have : readRows (fun r => some (scan r)) rows = .err := by
    induction rows with
    | nil => cases h
    | cons a l ih =>
      cases a with
      | none => rfl
      | some a =>
        rcases List.mem_cons.mp h with h | h
        · cases h
        · simp [readRows, ih h, Res.of, Res.bind]
  simp [query, this, Res.bind]

/-! ## MySQL -/

theorem myStoredShown_iff {f : Filter} (hf : OneOf f.schemas f.excludeSchemas)
    (ht : OneOf f.routines f.excludeRoutines) (r : MyStored) :
    (myShown f r.schema && passes f.routines f.excludeRoutines r.name) = true ↔ MyStoredAsked f r := by
  unfold MyStoredAsked
  rw [Bool.and_eq_true, myShown_iff hf, passes_iff ht]

theorem myParamText_written {p : MyParam} (hk : p.routineType = b!"FUNCTION" ∨ p.routineType = b!"PROCEDURE")
    (hn : (∃ m, p.mode = some m) ∧ ∃ n, p.name = some n) : myParamText p = some (written p) := by
  obtain ⟨⟨m, hm⟩, n, hn⟩ := hn
  unfold myParamText myParamMode written
  rcases hk with h | h
  · rw [h, hn, if_pos rfl, if_neg (by decide)]
    simp
  · rw [h, hm, hn, if_neg (by decide), if_pos rfl]
    simp

theorem myParamText_result {p : MyParam} (h : p.name = none) : myParamText p = none := by
  unfold myParamText
  rw [h]
  cases myParamMode p <;> rfl

/-- The parameters of a routine whose name no other routine has. -/
theorem myParamTexts_parameters {routines : List MyStored} {params : List MyParam}
    (hv : MyStoredValid routines params) (hone : (routines.map fun r => (r.schema, r.name)).Nodup) {r : MyStored}
    (hr : r ∈ routines) (hp : ∃ p ∈ params, Parameter r p) {zs : List MyParam}
    (hz : ∀ y, y ∈ zs ↔ y ∈ params ∧ (y.schema, y.routine) = (r.schema, r.name))
    (hs : zs.Pairwise (fun a b => a.number < b.number)) :
    ∃ text, myParamTexts (zs.map myParamText) = some text ∧ Parameters params r text := by
  have hty : ∀ y ∈ zs, y.routineType = r.type := by
    intro y hy
    obtain ⟨h1, h2⟩ := (hz y).mp hy
    obtain ⟨r', hr', e1, e2, e3⟩ := hv.owners y h1
    have : r' = r := map_nodup_inj hone hr' hr (by rw [← h2, e1, e2])
    rw [e3, this]
  let ps := zs.filter fun y => y.number ≠ 0
  have htext : (zs.map myParamText).filterMap id = ps.map written := by
    have : ∀ l : List MyParam, (∀ y ∈ l, y ∈ zs) →
        (l.map myParamText).filterMap id = (l.filter fun y => y.number ≠ 0).map written := by
      intro l
      induction l with
      | nil => intro _; rfl
      | cons y l ih =>
        intro h
        have hy := h y (List.mem_cons_self ..)
        have ih := ih fun z hz => h z (List.mem_cons_of_mem _ hz)
        have hym := ((hz y).mp hy).1
        by_cases h0 : y.number = 0
        · rw [List.map_cons, myParamText_result (hv.results y hym h0), List.filter_cons_of_neg (by simp [h0])]
          simpa using ih
        · rw [List.map_cons, myParamText_written (by rw [hty y hy]; exact hv.kinds r hr) (hv.named y hym h0),
            List.filter_cons_of_pos (by simp [h0])]
          simpa using ih
    exact this zs fun _ h => h
  have hmem : ∀ p, p ∈ ps ↔ p ∈ params ∧ Parameter r p := by
    intro p
    simp only [ps, List.mem_filter, decide_eq_true_eq]
    constructor
    · rintro ⟨h1, h2⟩
      obtain ⟨h3, h4⟩ := (hz p).mp h1
      exact ⟨h3, (Prod.mk.inj h4).1, (Prod.mk.inj h4).2, hty p h1, h2⟩
    · rintro ⟨h1, h2, h3, _, h5⟩
      exact ⟨(hz p).mpr ⟨h1, by rw [h2, h3]⟩, h5⟩
  refine ⟨Go.join b!"|" (ps.map written), ?_, ps, hmem, hs.filter _, rfl⟩
  unfold myParamTexts
  rw [htext, if_neg]
  obtain ⟨p, h1, h2⟩ := hp
  intro e
  have := (hmem p).mpr ⟨h1, h2⟩
  rw [List.map_eq_nil_iff.mp e] at this
  cases this

theorem myStoredRow_is {params : List MyParam} {r : MyStored} {text d : Str} (hd : r.definition = some d)
    (ht : Parameters params r text) {row : RoutineRow} (h : myStoredRow r (some text) = some row) :
    MyStoredIs params r (scanRoutine .mysql row) := by
  unfold myStoredRow at h
  rw [hd] at h
  cases h
  refine { schema := rfl, name := rfl, type := rfl, sql := ⟨d, hd, unixLines_same d⟩, comment := rfl
           result := ?_, parameters := ⟨text, ht, ?_⟩, body := ?_, deterministic := ?_, access := ?_
           security := ?_, once := ?_ }
  · exact .head _
  · exact .tail _ (.head _)
  · exact .tail _ (.tail _ (.head _))
  · refine .tail _ (.tail _ (.tail _ ?_))
    by_cases h : r.deterministic = b!"YES"
    · rw [if_pos h, if_pos (by simp [h])]; exact .head _
    · rw [if_neg h, if_neg (by simp [h])]; exact .head _
  · simp [scanRoutine]
  · simp [scanRoutine]
  · show ([b!"returnType", b!"parameters", b!"routineBody", b!"isDeterministic", b!"sqlDataAccess", b!"securityType"]).Nodup
    decide

theorem myParamGroups_sorted {routines : List MyStored} {params : List MyParam}
    (hv : MyStoredValid routines params) (hone : (routines.map fun r => (r.schema, r.name)).Nodup) :
    (∀ x ∈ myParamGroups params, ∃ zs : List MyParam, zs ≠ [] ∧
      (∀ y, y ∈ zs ↔ y ∈ params ∧ (y.schema, y.routine) = x.1) ∧ zs.Pairwise (fun a b => a.number < b.number) ∧
        x.2 = zs.map myParamText) ∧
    (∀ y ∈ params, ∃ x ∈ myParamGroups params, x.1 = (y.schema, y.routine)) ∧
    ((myParamGroups params).map (·.1)).Nodup := by
  refine grouped_sorted (ys := params) (key := fun p => (p.schema, p.routine)) (num := (·.number)) (out := myParamText)
    (nodup_of_map hv.numbers) fun y hy z hz e1 e2 => map_nodup_inj hv.numbers hy hz ?_
  obtain ⟨r, hr, h1, h2, h3⟩ := hv.owners y hy
  obtain ⟨r', hr', k1, k2, k3⟩ := hv.owners z hz
  have : r = r' := map_nodup_inj hone hr hr' (by simp only [Prod.mk.injEq] at e1 ⊢; rw [← h1, ← h2, ← k1, ← k2]; exact e1)
  subst this
  simp only [h1, h2, h3, k1, k2, k3, e2]

/-- C115: the routines of MySQL that are reported are those that are asked for, each once, with
parameters in their order, result, definition, comment and characteristics, if each of them has a
parameter, the definition of each may be seen, and no procedure has the name of a function. -/
theorem mysql_stored_partial {f : Filter} {routines : List MyStored} {params : List MyParam}
    (hf : OneOf f.schemas f.excludeSchemas) (ht : OneOf f.routines f.excludeRoutines)
    (hv : MyStoredValid routines params)
    (hone : (routines.map fun r => (r.schema, r.name)).Nodup)
    (hp : ∀ r ∈ routines, MyStoredAsked f r → ∃ p ∈ params, Parameter r p)
    (hd : ∀ r ∈ routines, MyStoredAsked f r → ∃ d, r.definition = some d) :
    ∃ xs, getRoutines .mysql { routines := some { rows := myStored f routines params } } = .ok xs ∧
      (∀ x ∈ xs, ∃ r ∈ routines, MyStoredAsked f r ∧ MyStoredIs params r x) ∧
      (∀ r ∈ routines, MyStoredAsked f r → ∃ x ∈ xs, MyStoredIs params r x) ∧
      (xs.map fun x => (x.routineSchema, x.routineName)).Nodup := by
  obtain ⟨g1, g2, g3⟩ := myParamGroups_sorted hv hone
  let all := pairs routines fun _ => myParamGroups params
  let cond : MyStored × (Str × Str) × List (Option Str) → Bool := fun y =>
    y.2.1 == (y.1.schema, y.1.name) && (myShown f y.1.schema && passes f.routines f.excludeRoutines y.1.name)
  let out : MyStored × (Str × Str) × List (Option Str) → RoutineRow := fun y =>
    (myStoredRow y.1 (myParamTexts y.2.2)).getD {}
  have hmem : ∀ r g, (r, g) ∈ all.filter cond ↔
      r ∈ routines ∧ g ∈ myParamGroups params ∧ g.1 = (r.schema, r.name) ∧ MyStoredAsked f r := by
    intro r g
    rw [List.mem_filter, mem_pairs]
    simp only [cond]
    rw [Bool.and_eq_true, beq_iff_eq, myStoredShown_iff hf ht, and_assoc]
  have hrow : ∀ r g, (r, g) ∈ all.filter cond → myStoredRow r (myParamTexts g.2) = some (out (r, g)) ∧
      MyStoredIs params r (scanRoutine .mysql (out (r, g))) := by
    intro r g h
    obtain ⟨h1, h2, h3, h4⟩ := (hmem r g).mp h
    obtain ⟨zs, _, z2, z3, z4⟩ := g1 g h2
    rw [h3] at z2
    obtain ⟨text, e, ht'⟩ := myParamTexts_parameters hv hone h1 (hp r h1 h4) z2 z3
    obtain ⟨d, hd'⟩ := hd r h1 h4
    have he : myStoredRow r (myParamTexts g.2) = some (out (r, g)) := by
      show _ = some ((myStoredRow r (myParamTexts g.2)).getD {})
      rw [z4, e]
      simp [myStoredRow, hd']
    refine ⟨he, myStoredRow_is hd' ht' ?_⟩
    rw [← he, z4, e]
  have hrows : myStored f routines params = ((all.filter cond).map out).map some := by
    have e : ((all.filter cond).map out).map some =
        all.flatMap fun y => if cond y = true then [myStoredRow y.1 (myParamTexts y.2.2)] else [] := by
      rw [flatMap_if, List.map_map, List.map_eq_flatMap]
      refine flatMap_congr fun y hy => ?_
      obtain ⟨r, g⟩ := y
      exact congrArg (fun z => [z]) (hrow r g hy).1.symm
    rw [e, flatMap_pairs]
    rfl
  refine ⟨((all.filter cond).map out).map (scanRoutine .mysql), ?_, ?_, ?_, ?_⟩
  · rw [hrows]
    exact readRows_some _ _
  · intro x hx
    rw [List.map_map] at hx
    obtain ⟨⟨r, g⟩, h, rfl⟩ := List.mem_map.mp hx
    obtain ⟨h1, _, _, h4⟩ := (hmem r g).mp h
    exact ⟨r, h1, h4, (hrow r g h).2⟩
  · intro r h1 h4
    obtain ⟨p, hpm, p1, p2, _⟩ := hp r h1 h4
    obtain ⟨g, hg, eg⟩ := g2 p hpm
    have h := (hmem r g).mpr ⟨h1, hg, by rw [eg, p1, p2], h4⟩
    exact ⟨_, List.mem_map.mpr ⟨_, List.mem_map.mpr ⟨(r, g), h, rfl⟩, rfl⟩, (hrow r g h).2⟩
  · rw [List.map_map, List.map_map]
    have hnd : (all.filter cond).Nodup :=
      (nodup_pairs (nodup_of_map hv.names) fun _ => nodup_of_map g3 : all.Nodup).filter _
    refine map_nodup_of hnd ?_
    rintro ⟨r, g⟩ hy ⟨r', g'⟩ hz e
    obtain ⟨h1, h2, h3, _⟩ := (hmem r g).mp hy
    obtain ⟨k1, k2, k3, _⟩ := (hmem r' g').mp hz
    have a1 := (hrow r g hy).2
    have a2 := (hrow r' g' hz).2
    simp only [Function.comp_apply, Prod.mk.injEq, a1.schema, a1.name, a2.schema, a2.name] at e
    have er : r = r' := map_nodup_inj hone h1 k1 (by simp only [e.1, e.2])
    subst er
    have eg : g = g' := map_nodup_inj g3 h2 k2 (h3.trans k3.symm)
    rw [eg]

/-- C115, refuted in general: a function of MySQL that is asked for and has no parameters makes reading the
routines fail, whatever else is in the database. -/
theorem mysql_function_refuted {f : Filter} {routines : List MyStored} {params : List MyParam}
    (hf : OneOf f.schemas f.excludeSchemas) (ht : OneOf f.routines f.excludeRoutines)
    (hv : MyStoredValid routines params) {r : MyStored} (hr : r ∈ routines) (ha : MyStoredAsked f r)
    (hres : ∃ p ∈ params, p.schema = r.schema ∧ p.routine = r.name)
    (hno : ∀ p ∈ params, p.schema = r.schema → p.routine = r.name → p.number = 0) :
    getRoutines .mysql { routines := some { rows := myStored f routines params } } = .err := by
  obtain ⟨p, hpm, p1, p2⟩ := hres
  refine readRows_none _ ?_
  have hk : (r.schema, r.name) ∈ keysOf ((params.map fun p => ((p.schema, p.routine), p.number, myParamText p)).map (·.1)) := by
    rw [mem_keysOf, List.map_map]
    exact List.mem_map.mpr ⟨p, hpm, by simp [p1, p2]⟩
  refine List.mem_flatMap.mpr ⟨r, hr, List.mem_flatMap.mpr ⟨_, List.mem_map.mpr ⟨_, hk, rfl⟩, ?_⟩⟩
  rw [if_pos (by rw [Bool.and_eq_true, myStoredShown_iff hf ht, beq_iff_eq]; exact ⟨rfl, ha⟩), List.mem_singleton]
  have : myParamTexts ((sortSeq (((params.map fun p => ((p.schema, p.routine), p.number, myParamText p)).filter
      (fun q => q.1 = (r.schema, r.name))).map (·.2))).map (·.2)) = none := by
    unfold myParamTexts
    rw [if_pos]
    rw [List.filterMap_eq_nil_iff]
    intro t h
    obtain ⟨⟨n, t'⟩, h1, rfl⟩ := List.mem_map.mp h
    obtain ⟨⟨k, n', t''⟩, h2, e⟩ := List.mem_map.mp ((sortSeq_perm _).mem_iff.mp h1)
    cases e
    obtain ⟨h3, hk⟩ := List.mem_filter.mp h2
    obtain ⟨q, hq, e⟩ := List.mem_map.mp h3
    cases e
    simp only [decide_eq_true_eq, Prod.mk.injEq] at hk
    exact myParamText_result (hv.results q hq (hno q hq hk.1 hk.2))
  rw [this]
  rfl

/-! ## SQL Server -/

theorem msStoredShown_iff {fold : Char → Char} {shipped : MsTrigObject → Prop} {f : Filter} {o : MsTrigObject}
    (hf : OneOf f.schemas f.excludeSchemas) (ht : OneOf f.routines f.excludeRoutines)
    (hs : shipped o ↔ Longer fold b!"sp" o.name) :
    msStoredShown fold f o = true ↔ MsStoredAsked shipped f o := by
  have l1 : like fold b!"sp_%" o.name = true ↔ Longer fold b!"sp" o.name :=
    like_more fold (lit := b!"sp") (by decide) o.name
  have ty : [b!"P", b!"FN", b!"IF", b!"TF"].contains o.type = true ↔
      (o.type = b!"P" ∨ o.type = b!"FN" ∨ o.type = b!"IF" ∨ o.type = b!"TF") := by simp
  unfold msStoredShown MsStoredAsked
  simp only [Bool.and_eq_true, Bool.or_eq_true, Bool.not_eq_true', ← Bool.not_eq_true, ty, l1, passes_iff hf,
    passes_iff ht, hs, and_assoc]

/-- C115: the procedures and functions of SQL Server that are reported are those that are asked for, each
once, with its definition, if none of them is encrypted and the names of the server's own begin with sp
and no others do. -/
theorem sqlserver_stored_partial {fold : Char → Char} {shipped : MsTrigObject → Prop} {f : Filter}
    {objects : List MsTrigObject} (hf : OneOf f.schemas f.excludeSchemas) (ht : OneOf f.routines f.excludeRoutines)
    (hs : ∀ o ∈ objects, shipped o ↔ Longer fold b!"sp" o.name)
    (hm : ∀ o ∈ objects, MsStoredAsked shipped f o → ∃ d, o.module = some (some d))
    (hname : (objects.map fun o => (o.schema, o.name)).Nodup) :
    ∃ xs, getRoutines .sqlserver { routines := some { rows := msStored fold f objects } } = .ok xs ∧
      (∀ x ∈ xs, ∃ o ∈ objects, MsStoredAsked shipped f o ∧ MsStoredIs o x) ∧
      (∀ o ∈ objects, MsStoredAsked shipped f o → ∃ x ∈ xs, MsStoredIs o x) ∧
      (xs.map fun x => (x.routineSchema, x.routineName)).Nodup := by
  have hshown := fun o h => msStoredShown_iff hf ht (hs o h)
  have hmem : ∀ o, o ∈ objects.filter (msStoredShown fold f) ↔ o ∈ objects ∧ MsStoredAsked shipped f o := by
    intro o
    rw [List.mem_filter]
    constructor
    · rintro ⟨h1, h2⟩; exact ⟨h1, (hshown o h1).mp h2⟩
    · rintro ⟨h1, h2⟩; exact ⟨h1, (hshown o h1).mpr h2⟩
  let out : MsTrigObject → RoutineRow := fun o => msStoredRow o ((o.module.getD none).getD [])
  have hrows : msStored fold f objects = ((objects.filter (msStoredShown fold f)).map out).map some := by
    unfold msStored
    rw [List.map_map, List.map_eq_flatMap]
    refine flatMap_congr fun o ho => ?_
    obtain ⟨h1, h2⟩ := (hmem o).mp ho
    obtain ⟨d, hd⟩ := hm o h1 h2
    simp [out, hd]
  have hshow : ∀ o ∈ objects, MsStoredAsked shipped f o → MsStoredIs o (scanRoutine .sqlserver (out o)) := by
    intro o h1 h2
    obtain ⟨d, hd⟩ := hm o h1 h2
    refine { schema := rfl, name := rfl, procedure := fun h => ?_, function := fun h => ?_, sql := ⟨d, hd, ?_⟩ }
    · simp [out, msStoredRow, scanRoutine, h]
    · simp only [out, msStoredRow, scanRoutine, if_neg h]
    · have := unixLines_same d
      simpa only [out, msStoredRow, scanRoutine, hd, Option.getD_some] using this
  refine ⟨((objects.filter (msStoredShown fold f)).map out).map (scanRoutine .sqlserver), ?_, ?_, ?_, ?_⟩
  · rw [hrows]
    exact readRows_some _ _
  · intro x hx
    rw [List.map_map] at hx
    obtain ⟨o, h, rfl⟩ := List.mem_map.mp hx
    obtain ⟨h1, h2⟩ := (hmem o).mp h
    exact ⟨o, h1, h2, hshow o h1 h2⟩
  · intro o h1 h2
    exact ⟨_, List.mem_map.mpr ⟨_, List.mem_map.mpr ⟨o, (hmem o).mpr ⟨h1, h2⟩, rfl⟩, rfl⟩, hshow o h1 h2⟩
  · rw [List.map_map, List.map_map]
    refine map_nodup_of ((nodup_of_map hname).filter _) ?_
    intro o ho o' ho' e
    exact map_nodup_inj hname (List.mem_filter.mp ho).1 (List.mem_filter.mp ho').1 e

/-- C115, refuted in general: one encrypted procedure or function of SQL Server that is asked for makes
reading the routines fail, whatever else is in the database. -/
theorem sqlserver_encrypted_routine_refuted {fold : Char → Char} {shipped : MsTrigObject → Prop} {f : Filter}
    {objects : List MsTrigObject} {o : MsTrigObject} (hf : OneOf f.schemas f.excludeSchemas)
    (ht : OneOf f.routines f.excludeRoutines) (ho : o ∈ objects) (hs : shipped o ↔ Longer fold b!"sp" o.name)
    (ha : MsStoredAsked shipped f o) (hm : o.module = some none) :
    getRoutines .sqlserver { routines := some { rows := msStored fold f objects } } = .err := by
  refine readRows_none _ (List.mem_flatMap.mpr
    ⟨o, List.mem_filter.mpr ⟨ho, (msStoredShown_iff hf ht hs).mpr ha⟩, ?_⟩)
  simp [hm]

end Sqddl.Scripts
