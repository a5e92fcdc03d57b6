import Verif.Props.ScriptOrderSample
import Verif.Props.ScriptObjectsSample
import Verif.Props.ScriptStoredSample

/-!
# C116: the order of views of SQLite, routines of SQL Server and triggers of Postgres
-/

namespace Sqddl.Scripts
open OwnSpec OrderSpec RoutineSpec
open Introspect (RoutineRow)

/-- C116: the views of SQLite come in the same order, however they are stored. -/
theorem sqlite_views_again {le : Str → Str → Prop} {f : ObjFilter} {cols : Str → List (Str × Str)}
    {c d : List LiteObject} (hs : c.Perm d) (hn : ((c.filter fun m => m.type == b!"view").map (·.tblName)).Nodup)
    (ha : Apart le liteViewOrder (liteViews f cols c)) {x y : List View}
    (hx : Answers le liteViewOrder (liteViews f cols c) x) (hy : Answers le liteViewOrder (liteViews f cols d) y) :
    x = y := by
  refine answers_unique ((hs.filter _).map _) ?_ ha hx hy
  have key : ∀ p : LiteObject → Bool, (∀ m, p m = true → (m.type == b!"view") = true) →
      ((c.filter p).map (·.tblName)).Nodup := by
    intro p hp
    have e : c.filter p = (c.filter fun m => m.type == b!"view").filter p := by
      rw [List.filter_filter]
      refine List.filter_congr fun m _ => ?_
      cases h : p m with
      | false => simp
      | true => simp [hp m h]
    rw [e]
    exact hn.sublist (List.filter_sublist.map _)
  have hk := key (fun m => m.type == b!"view" && liteShown f.system m && passes f.views f.excludeViews m.tblName &&
      !(cols m.tblName).isEmpty) fun m h => by
    simp only [Bool.and_eq_true] at h
    exact h.1.1.1
  rw [List.map_map]
  refine map_nodup_of (nodup_of_map hk) fun i hi j hj h => map_nodup_inj hk hi hj ?_
  simpa [liteViewOrder] using h

/-- rows that are all there -/
theorem some_rows {A : Type} {l : List (Option A)} (h : ∀ o ∈ l, o.isSome) : (l.filterMap id).map some = l := by
  induction l with
  | nil => rfl
  | cons o l ih =>
    cases o with
    | none => exact absurd (h none (.head _)) (by simp)
    | some a => simpa using ih fun o ho => h o (.tail _ ho)

theorem msStored_of {fold : Char → Char} {f : Filter} {c : List MsTrigObject} {r : RoutineRow}
    (h : some r ∈ msStored fold f c) : ∃ o ∈ c, ∃ d, o.module = some (some d) ∧ r = msStoredRow o d := by
  unfold msStored at h
  obtain ⟨o, ho, h⟩ := List.mem_flatMap.mp h
  obtain ⟨d, hd, h⟩ := List.mem_map.mp h
  cases d with
  | none => cases h
  | some d =>
    refine ⟨o, (List.mem_filter.mp ho).1, d, ?_, (Option.some.inj h).symm⟩
    simpa using hd

/-- Routines with different names give different rows. -/
theorem msStored_keys {fold : Char → Char} {f : Filter} {c : List MsTrigObject}
    (hn : (c.map fun o => (o.schema, o.name)).Nodup) {xs : List RoutineRow} (h : msStored fold f c = xs.map some) :
    (xs.map msStoredOrder).Nodup := by
  induction c generalizing xs with
  | nil =>
    cases xs with
    | nil => exact .nil
    | cons a l => cases h
  | cons o c ih =>
    have hn' := List.nodup_cons.mp hn
    have e : msStored fold f (o :: c) =
        (if msStoredShown fold f o then o.module.toList.map fun d => d.map (msStoredRow o) else []) ++ msStored fold f c := by
      unfold msStored
      by_cases hs : msStoredShown fold f o = true
      · rw [List.filter_cons_of_pos hs, List.flatMap_cons, if_pos hs]
      · rw [List.filter_cons_of_neg hs, if_neg hs, List.nil_append]
    rw [e] at h
    by_cases hs : msStoredShown fold f o = true
    · rw [if_pos hs] at h
      cases hm : o.module with
      | none =>
        rw [hm] at h
        exact ih hn'.2 h
      | some d =>
        rw [hm] at h
        cases xs with
        | nil => cases h
        | cons a l =>
          simp only [Option.toList_some, List.map_cons, List.map_nil, List.cons_append, List.nil_append,
            List.cons.injEq] at h
          rw [List.map_cons]
          refine List.nodup_cons.mpr ⟨fun hm' => ?_, ih hn'.2 h.2⟩
          obtain ⟨r, hr, er⟩ := List.mem_map.mp hm'
          have : some r ∈ msStored fold f c := by
            rw [h.2]
            exact List.mem_map_of_mem hr
          obtain ⟨o', ho', d', _, rfl⟩ := msStored_of this
          cases d with
          | none => cases h.1
          | some d =>
            have ea : a = msStoredRow o d := (Option.some.inj h.1).symm
            subst ea
            simp only [msStoredOrder, msStoredRow, List.cons.injEq, and_true] at er
            refine hn'.1 (List.mem_map.mpr ⟨o', ho', ?_⟩)
            simp only [er.1, er.2]
    · rw [if_neg hs] at h
      exact ih hn'.2 h

/-- C116: if the routines of SQL Server can be read, they can be read again, and come in the same order, however
they are stored. -/
theorem sqlserver_routines_again {le : Str → Str → Prop} {fold : Char → Char} {f : Filter} {c d : List MsTrigObject}
    (hs : c.Perm d) (hn : (c.map fun o => (o.schema, o.name)).Nodup) {xs : List RoutineRow}
    (hxs : msStored fold f c = xs.map some) (ha : Apart le msStoredOrder xs) {x : List RoutineRow}
    (hx : Answers le msStoredOrder xs x) :
    ∃ ys, msStored fold f d = ys.map some ∧ ∀ y, Answers le msStoredOrder ys y → x = y := by
  have hp : (msStored fold f c).Perm (msStored fold f d) := (hs.filter _).flatMap_right _
  refine ⟨(msStored fold f d).filterMap id, (some_rows fun o ho => ?_).symm, fun y hy => ?_⟩
  · have := hp.mem_iff.mpr ho
    rw [hxs] at this
    obtain ⟨r, _, rfl⟩ := List.mem_map.mp this
    rfl
  · refine answers_unique ?_ (msStored_keys hn hxs) ha hx hy
    have := hp.filterMap id
    rw [hxs, List.filterMap_map] at this
    simpa using this

/-- C116: the triggers of Postgres come in the same order, however they are stored, if each is reported
once (C113). -/
theorem pg_triggers_again_partial {le : Str → Str → Prop} {f : ObjFilter} {c d : PgObjects} (hs : SameTriggers c d)
    (hn : ((pgTriggers f c).map fun r => (r.tableSchema, r.tableName, r.triggerName)).Nodup)
    (ha : Apart le pgTriggerOrder (pgTriggers f c)) {x y : List Trigger}
    (hx : Answers le pgTriggerOrder (pgTriggers f c) x) (hy : Answers le pgTriggerOrder (pgTriggers f d) y) : x = y := by
  refine answers_unique ?_ ?_ ha hx hy
  · unfold pgTriggers
    rw [hs.triggerdef]
    refine (hs.triggers.flatMap_right _).trans (flatMap_perm fun g _ => (hs.classes.flatMap_right _).trans
      (flatMap_perm fun t _ => (hs.namespaces.flatMap_right _).trans (flatMap_perm fun n _ => ?_)))
    split
    · exact (leftJoin_perm hs.descriptions _).map _
    · exact .refl _
  · refine map_nodup_of (nodup_of_map hn) fun i hi j hj h => map_nodup_inj hn hi hj ?_
    simp only [pgTriggerOrder, List.cons.injEq, and_true] at h
    simp only [h.1, h.2.1, h.2.2]

/-! ## Databases to which they apply -/

/-- two views of SQLite -/
def orderViews : List LiteObject :=
  [⟨b!"view", b!"titles", b!"titles", b!"CREATE VIEW titles"⟩, ⟨b!"table", b!"film", b!"film", b!"CREATE TABLE"⟩,
   ⟨b!"view", b!"names", b!"names", b!"CREATE VIEW names"⟩]

example : ((orderViews.filter fun m => m.type == b!"view").map (·.tblName)).Nodup ∧
    Apart nameLe liteViewOrder (liteViews {} (fun _ => [(b!"a", b!"TEXT")]) orderViews) ∧
    Answers nameLe liteViewOrder (liteViews {} (fun _ => [(b!"a", b!"TEXT")]) orderViews)
      (liteViews {} (fun _ => [(b!"a", b!"TEXT")]) orderViews.reverse) := by
  refine ⟨by decide, by unfold Apart; decide, by decide, by decide⟩

example : ∃ xs, msStored Go.lowerC {} sampleMsStored = xs.map some ∧ xs.length = 2 ∧
    (sampleMsStored.map fun o => (o.schema, o.name)).Nodup ∧ Apart nameLe msStoredOrder xs ∧
    Answers nameLe msStoredOrder xs xs.reverse := by
  refine ⟨[msStoredRow ⟨1, b!"dbo", b!"pay", b!"P", 0, some (some b!"CREATE PROCEDURE pay AS\r\nRETURN")⟩
      b!"CREATE PROCEDURE pay AS\r\nRETURN",
    msStoredRow ⟨2, b!"dbo", b!"area", b!"FN", 0, some (some b!"CREATE FUNCTION area")⟩ b!"CREATE FUNCTION area"],
    by rfl, rfl, by decide, ?_, List.reverse_perm _, ?_⟩
  · unfold Apart
    decide
  · decide

example : SameTriggers samplePgObjects { samplePgObjects with triggers := samplePgObjects.triggers.reverse } ∧
    ((pgTriggers {} samplePgObjects).map fun r => (r.tableSchema, r.tableName, r.triggerName)).Nodup ∧
    Apart nameLe pgTriggerOrder (pgTriggers {} samplePgObjects) ∧
    Answers nameLe pgTriggerOrder (pgTriggers {} samplePgObjects) (pgTriggers {} samplePgObjects) ∧
    (pgTriggers {} samplePgObjects).length = 2 := by
  refine ⟨⟨.refl _, .refl _, (List.reverse_perm _).symm, .refl _, rfl⟩, by decide, by unfold Apart; decide,
    ⟨by decide, by decide⟩, by decide⟩

end Sqddl.Scripts
