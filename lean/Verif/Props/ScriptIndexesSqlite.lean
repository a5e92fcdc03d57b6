import Verif.Spec.ScriptIndexes
import Verif.Props.ScriptKeysSqlite

/-!
# C111: the indexes of SQLite are reported as they were defined
-/

namespace Sqddl.Scripts
open OwnSpec KeySpec IndexSpec

/-- the table without its constraints -/
def LiteIndexed.plain (t : LiteIndexed) : LiteTable := ⟨t.name, t.sql, [], [], []⟩

/-- The names are plain and were not written in single quotes. -/
def LiteIndexPlain (db : List LiteIndexed) : Prop :=
  ∀ t ∈ db, PlainTable t.name ∧ (t.sql.take 14).map Go.lowerC ≠ b!"create table '"

/-- the table is asked for -/
def LiteIndexAsked (f : Filter) (t : LiteIndexed) : Prop :=
  (f.system = true ∨ ¬ LiteOwn t.name) ∧ Wanted f.tables f.excludeTables t.name

theorem liteIndexChosen_iff {f : Filter} (ht : OneOf f.tables f.excludeTables) {db : List LiteIndexed}
    (hn : LiteIndexPlain db) {t : LiteIndexed} (h : t ∈ db) :
    liteChosen f (LiteIndexed.plain t) = true ↔ LiteIndexAsked f t :=
  liteChosen_iff ht (db := db.map LiteIndexed.plain)
    (by
      intro x hx
      obtain ⟨y, hy, rfl⟩ := List.mem_map.mp hx
      exact hn y hy)
    (List.mem_map.mpr ⟨t, h, rfl⟩)

/-- C111: the indexes of SQLite that are reported are those made with CREATE INDEX on tables that are
asked for, each once, with its columns in their order, an empty text for an expression, and its
statement. -/
theorem sqlite_index_columns_partial {f : Filter} {db : List LiteIndexed} {c : LiteIndexInfo}
    (ht : OneOf f.tables f.excludeTables) (hs : LiteIndexShows db c) (hv : LiteIndexValid db)
    (hn : LiteIndexPlain db) :
    (∀ x, x ∈ liteIndexCols f c ↔ ∃ t ∈ db, ∃ i ∈ t.indexes, LiteIndexAsked f t ∧
      x = (⟨t.name, i.name, i.unique, i.sql⟩, i.parts.map (·.getD []))) ∧
    (liteIndexCols f c).Nodup := by
  let sel : LiteIndexed → Bool := fun t => liteChosen f (LiteIndexed.plain t)
  let items : List (LiteIndexKey × List Str) :=
    (db.filter sel).flatMap fun t => t.indexes.map fun i => (⟨t.name, i.name, i.unique, i.sql⟩, i.parts.map (·.getD []))
  have hdb : db.Nodup := (List.pairwise_map.mp hv.names).imp fun h e => h (by rw [e])
  have hk : (items.map (·.1)).Nodup := by
    have e : items.map (·.1) = (db.filter sel).flatMap fun t => t.indexes.map fun i =>
        ⟨t.name, i.name, i.unique, i.sql⟩ := by
      simp only [items, List.map_flatMap, List.map_map]
      rfl
    rw [e]
    unfold List.Nodup
    rw [List.pairwise_flatMap]
    constructor
    · intro t h
      have h1 := (hv.indexes t (List.mem_filter.mp h).1).1
      refine List.pairwise_map.mpr ((List.pairwise_map.mp h1).imp ?_)
      intro a b hab e
      exact hab (congrArg (·.name) e)
    · refine ((List.pairwise_map.mp hv.names).filter _).imp ?_
      intro a b hab x hx y hy e
      obtain ⟨u, _, rfl⟩ := List.mem_map.mp hx
      obtain ⟨v, _, rfl⟩ := List.mem_map.mp hy
      exact hab (congrArg (·.table) e)
  have hnamed : (liteNamed f c.rows).Perm ((db.filter sel).map (·.name)) := by
    have := liteNamed_perm (f := f) (db := db.map LiteIndexed.plain)
      (c := ⟨c.rows, fun _ => [], fun _ => [], fun _ => [], fun _ => []⟩)
      ⟨by rw [List.map_map]; exact hs.rows,
       fun t h => (by obtain ⟨y, _, rfl⟩ := List.mem_map.mp h; exact .refl _),
       fun t h => (by obtain ⟨y, _, rfl⟩ := List.mem_map.mp h; exact .refl _),
       fun t h u hu => (by obtain ⟨y, _, rfl⟩ := List.mem_map.mp h; cases hu),
       fun t h => (by obtain ⟨y, _, rfl⟩ := List.mem_map.mp h; exact .refl _)⟩
    rw [List.filter_map, List.map_map] at this
    exact this
  have hp : (liteIndexCols f c).Perm items := by
    unfold liteIndexCols
    refine grouped_perm 0 hk ?_ ?_
    · intro x hx
      obtain ⟨t, h, hx⟩ := List.mem_flatMap.mp hx
      obtain ⟨i, hi, rfl⟩ := List.mem_map.mp hx
      exact fun e => (hv.indexes t (List.mem_filter.mp h).1).2 i hi (List.map_eq_nil_iff.mp e)
    · refine (hnamed.flatMap_right _).trans ?_
      simp only [items]
      rw [List.flatMap_map, List.flatMap_assoc]
      refine flatMap_perm fun t h => ?_
      have htd := (List.mem_filter.mp h).1
      rw [List.flatMap_map]
      have h2 : ((c.indexes t.name).flatMap fun i => c.indexRows.flatMap fun m => (c.columns i.1).flatMap fun x =>
          if m.tblName == t.name && m.name == i.1 && i.2.2 == 'c' then
            [((⟨t.name, i.1, i.2.1, m.sql⟩ : LiteIndexKey), x.1, litePart x.2.1 x.2.2)]
          else []) =
          ((c.indexes t.name).filter (fun i => i.2.2 == 'c')).flatMap fun i =>
            (c.indexRows.filter (fun m => m.tblName == t.name && m.name == i.1)).flatMap fun m =>
              (c.columns i.1).flatMap fun x =>
                [((⟨t.name, i.1, i.2.1, m.sql⟩ : LiteIndexKey), x.1, litePart x.2.1 x.2.2)] := by
        rw [← flatMap_if]
        refine flatMap_congr fun i _ => ?_
        by_cases hi : (i.2.2 == 'c') = true
        · rw [if_pos hi, ← flatMap_if]
          refine flatMap_congr fun m _ => ?_
          simp only [hi, Bool.and_true]
          by_cases hm : (m.tblName == t.name && m.name == i.1) = true
          · simp only [hm, if_true]
          · simp only [hm]
            simp
        · rw [if_neg hi, List.flatMap_eq_nil_iff]
          intro m _
          rw [List.flatMap_eq_nil_iff]
          intro x _
          refine if_neg ?_
          rw [Bool.and_eq_true]
          exact fun h => hi h.2
      rw [h2]
      refine ((hs.indexes t htd).flatMap_right _).trans ?_
      rw [List.flatMap_map]
      refine flatMap_perm fun i hi => ?_
      rw [hs.indexRows t htd i hi, List.flatMap_cons, List.flatMap_nil, List.append_nil]
      obtain ⟨cid, hc⟩ := hs.columns t htd i hi
      refine (hc.flatMap_right _).trans (.of_eq ?_)
      unfold spread
      rw [numbered_zipIdx, List.zipIdx_map, List.map_map, List.map_map, List.flatMap_map, List.map_eq_flatMap]
      refine flatMap_congr fun x _ => ?_
      obtain ⟨p, n⟩ := x
      have hl : litePart (cidOf cid n p) p = p.getD [] := by
        cases p with
        | none => rfl
        | some s =>
          unfold litePart cidOf
          dsimp only
          rw [if_neg (by omega), if_neg (by omega)]
      dsimp only
      rw [hl]
      rfl
  constructor
  · intro x
    rw [hp.mem_iff, List.mem_flatMap]
    constructor
    · rintro ⟨t, h, hx⟩
      rw [List.mem_filter] at h
      obtain ⟨i, hi, rfl⟩ := List.mem_map.mp hx
      exact ⟨t, h.1, i, hi, (liteIndexChosen_iff ht hn h.1).mp h.2, rfl⟩
    · rintro ⟨t, h1, i, hi, h3, rfl⟩
      exact ⟨t, List.mem_filter.mpr ⟨h1, (liteIndexChosen_iff ht hn h1).mpr h3⟩, List.mem_map.mpr ⟨i, hi, rfl⟩⟩
  · exact hp.nodup_iff.mpr (nodup_of_keys hk)

end Sqddl.Scripts
