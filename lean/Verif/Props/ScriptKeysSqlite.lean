import Verif.Lemmas.Grouped
import Verif.Spec.ScriptKeys
import Verif.Props.ScriptRows

/-!
# C110: the constraints of SQLite are reported as they were defined
-/

namespace Sqddl.Scripts
open OwnSpec KeySpec

/-- the table is asked for -/
def LiteAsked (f : Filter) (t : LiteTable) : Prop :=
  (f.system = true ∨ ¬ LiteOwn t.name) ∧ Wanted f.tables f.excludeTables t.name

/-- The names are plain and were not written in single quotes. -/
def LitePlain (db : List LiteTable) : Prop :=
  ∀ t ∈ db, PlainTable t.name ∧ (t.sql.take 14).map Go.lowerC ≠ b!"create table '"

/-- the condition of the scripts -/
def liteChosen (f : Filter) (t : LiteTable) : Bool :=
  (f.system || (!like Go.lowerC b!"sqlite_%" t.name && !like Go.lowerC b!"CREATE TABLE '%" t.sql)) &&
  passes f.tables f.excludeTables t.name

theorem liteChosen_iff {f : Filter} (ht : OneOf f.tables f.excludeTables) {db : List LiteTable} (hn : LitePlain db)
    {t : LiteTable} (h : t ∈ db) : liteChosen f t = true ↔ LiteAsked f t := by
  obtain ⟨h1, h2⟩ := hn t h
  have hl : like Go.lowerC b!"CREATE TABLE '%" t.sql = false := by
    by_cases hl : like Go.lowerC b!"CREATE TABLE '%" t.sql = true
    · have := (like_prefix Go.lowerC (lit := b!"CREATE TABLE '") (by decide) t.sql).mp hl
      exact absurd this.2 h2
    · simpa using hl
  unfold liteChosen LiteAsked
  rw [Bool.and_eq_true, passes_iff ht, Bool.or_eq_true, Bool.and_eq_true, hl, ← notLite_iff h1]
  simp

theorem liteNamed_perm {f : Filter} {db : List LiteTable} {c : LiteInfo} (hs : LiteShows db c) :
    (liteNamed f c.rows).Perm ((db.filter (liteChosen f)).map (·.name)) := by
  unfold liteNamed
  have h1 : c.rows.filter (fun m => m.type == b!"table" &&
      (f.system || (!like Go.lowerC b!"sqlite_%" m.tblName && !like Go.lowerC b!"CREATE TABLE '%" m.sql)) &&
      passes f.tables f.excludeTables m.tblName) =
      (c.rows.filter (fun m => m.type == b!"table")).filter (fun m =>
        (f.system || (!like Go.lowerC b!"sqlite_%" m.tblName && !like Go.lowerC b!"CREATE TABLE '%" m.sql)) &&
        passes f.tables f.excludeTables m.tblName) := by
    rw [List.filter_filter]
    refine congrArg (fun p => List.filter p c.rows) (funext fun m => ?_)
    rw [Bool.and_assoc, Bool.and_comm]
  rw [h1]
  refine ((hs.rows.filter _).map _).trans (.of_eq ?_)
  rw [List.filter_map, List.map_map]
  rfl

/-- C110: the primary keys of SQLite that are reported are those of the tables that are asked for,
each once, with its columns in their order. -/
theorem sqlite_primary_partial {f : Filter} {db : List LiteTable} {c : LiteInfo}
    (ht : OneOf f.tables f.excludeTables) (hs : LiteShows db c) (hv : LiteValid db) (hn : LitePlain db) :
    (∀ x, x ∈ litePrimary f c ↔ ∃ t ∈ db, t.primary ≠ [] ∧ LiteAsked f t ∧ x = (t.name, t.primary)) ∧
    (litePrimary f c).Nodup := by
  have hdb : db.Nodup := by
    have : (db.map (·.name)).Nodup := hv.names
    exact (List.pairwise_map.mp this).imp fun h e => h (congrArg _ e)
  let sel : LiteTable → Bool := fun t => liteChosen f t && !t.primary.isEmpty
  have hsel : ∀ t ∈ db, sel t = true ↔ t.primary ≠ [] ∧ LiteAsked f t := by
    intro t htd
    simp only [sel, Bool.and_eq_true, liteChosen_iff ht hn htd]
    rw [and_comm]
    simp
  have hinj : ∀ i ∈ db.filter sel, ∀ j ∈ db.filter sel, i.name = j.name → i = j := by
    intro i hi j hj e
    exact map_nodup_inj hv.names (List.mem_filter.mp hi).1 (List.mem_filter.mp hj).1 e
  have hp : (litePrimary f c).Perm ((db.filter sel).map fun t => (t.name, t.primary)) := by
    unfold litePrimary
    refine grouped_perm 1 ?_ ?_ ?_
    · rw [List.map_map]
      exact map_nodup_of (hdb.filter _) hinj
    · intro i hi
      obtain ⟨t, h, rfl⟩ := List.mem_map.mp hi
      rw [List.mem_filter] at h
      exact ((hsel t h.1).mp h.2).1
    · refine ((liteNamed_perm hs).flatMap_right _).trans ?_
      rw [List.flatMap_map, List.flatMap_map, ← flatMap_if, ← flatMap_if]
      refine flatMap_perm fun t htd => ?_
      by_cases hc : liteChosen f t = true
      · rw [if_pos hc]
        have h1 : ((c.info t.name).flatMap fun x => if x.2 > 0 then [(t.name, x.2, x.1)] else []).Perm
            (spread 1 (t.name, t.primary)) := by
          have h2 := flatMap_if (fun x : Str × Nat => decide (0 < x.2)) (fun x => [(t.name, x.2, x.1)]) (c.info t.name)
          simp only [decide_eq_true_eq] at h2
          rw [show (fun x : Str × Nat => if x.2 > 0 then [(t.name, x.2, x.1)] else []) =
            (fun x => if 0 < x.2 then [(t.name, x.2, x.1)] else []) from rfl, h2]
          refine ((hs.info t htd).flatMap_right _).trans (.of_eq ?_)
          unfold spread
          rw [numbered_zipIdx, List.map_map, ← List.map_eq_flatMap]
          rfl
        refine h1.trans (.of_eq ?_)
        by_cases he : t.primary = []
        · rw [if_neg (by simp [sel, he]), he]
          rfl
        · rw [if_pos (by simp [sel, he, hc])]
      · rw [if_neg hc, if_neg (by simp [sel, hc])]
  constructor
  · intro x
    rw [hp.mem_iff, List.mem_map]
    constructor
    · rintro ⟨t, h, rfl⟩
      rw [List.mem_filter] at h
      obtain ⟨h2, h3⟩ := (hsel t h.1).mp h.2
      exact ⟨t, h.1, h2, h3, rfl⟩
    · rintro ⟨t, h1, h2, h3, rfl⟩
      exact ⟨t, List.mem_filter.mpr ⟨h1, (hsel t h1).mpr ⟨h2, h3⟩⟩, rfl⟩
  · refine hp.nodup_iff.mpr (map_nodup_of (hdb.filter _) ?_)
    intro i hi j hj e
    exact hinj i hi j hj (congrArg (·.1) e)

/-- parts of the tables that are asked for have different keys -/
theorem parts_nodup {db : List LiteTable} {U K : Type} (hn : (db.map (·.name)).Nodup) (p : LiteTable → Bool)
    (parts : LiteTable → List U) (key : LiteTable → U → K) (hname : ∀ t t' u u', key t u = key t' u' → t.name = t'.name)
    (hin : ∀ t ∈ db, ((parts t).map (key t)).Nodup) :
    ((db.filter p).flatMap fun t => (parts t).map (key t)).Nodup := by
  unfold List.Nodup
  rw [List.pairwise_flatMap]
  constructor
  · intro t h
    exact hin t (List.mem_filter.mp h).1
  · have h1 : (db.filter p).Pairwise (fun a b => a.name ≠ b.name) := (List.pairwise_map.mp hn).filter p
    refine h1.imp ?_
    intro a b hab x hx y hy e
    obtain ⟨u, _, rfl⟩ := List.mem_map.mp hx
    obtain ⟨v, _, rfl⟩ := List.mem_map.mp hy
    exact hab (hname _ _ _ _ e)

/-- C110: the unique constraints of SQLite that are reported are those of the tables that are asked
for, each once, with its columns in their order. -/
theorem sqlite_unique_partial {f : Filter} {db : List LiteTable} {c : LiteInfo}
    (ht : OneOf f.tables f.excludeTables) (hs : LiteShows db c) (hv : LiteValid db) (hn : LitePlain db) :
    (∀ x, x ∈ liteUnique f c ↔ ∃ t ∈ db, ∃ u ∈ t.uniques, LiteAsked f t ∧ x = ((t.name, u.1), u.2)) ∧
    (liteUnique f c).Nodup := by
  let items : List ((Str × Str) × List Str) :=
    (db.filter (liteChosen f)).flatMap fun t => t.uniques.map fun u => ((t.name, u.1), u.2)
  have hk : (items.map (·.1)).Nodup := by
    have e : items.map (·.1) = (db.filter (liteChosen f)).flatMap fun t => t.uniques.map fun u => (t.name, u.1) := by
      simp only [items, List.map_flatMap, List.map_map]
      rfl
    rw [e]
    refine parts_nodup hv.names _ (·.uniques) (fun t u => (t.name, u.1)) (fun _ _ _ _ e => congrArg (·.1) e) ?_
    intro t htd
    have h1 := (hv.uniques t htd).1
    rw [show (fun u : Str × List Str => (t.name, u.1)) = (fun s => (t.name, s)) ∘ (·.1) from rfl, ← List.map_map]
    exact map_nodup_of h1 fun a _ b _ e => congrArg (·.2) e
  have hp : (liteUnique f c).Perm items := by
    unfold liteUnique
    refine grouped_perm 0 hk ?_ ?_
    · intro i hi
      obtain ⟨t, h, hi⟩ := List.mem_flatMap.mp hi
      obtain ⟨u, hu, rfl⟩ := List.mem_map.mp hi
      exact (hv.uniques t (List.mem_filter.mp h).1).2 u hu
    · refine ((liteNamed_perm hs).flatMap_right _).trans ?_
      simp only [items]
      rw [List.flatMap_map, List.flatMap_assoc]
      refine flatMap_perm fun t h => ?_
      have htd := (List.mem_filter.mp h).1
      rw [List.flatMap_map]
      have h2 : ((c.indexes t.name).flatMap fun i => (c.columns i.1).flatMap fun x =>
          if i.2.1 && i.2.2 == 'u' then [((t.name, i.1), x.1, x.2)] else []) =
          ((c.indexes t.name).filter (fun i => i.2.1 && i.2.2 == 'u')).flatMap fun i =>
            (c.columns i.1).flatMap fun x => [((t.name, i.1), x.1, x.2)] := by
        rw [← flatMap_if]
        refine flatMap_congr fun i _ => ?_
        by_cases hi : (i.2.1 && i.2.2 == 'u') = true
        · simp only [hi, if_true]
        · rw [if_neg hi, List.flatMap_eq_nil_iff]
          intro x _
          rw [if_neg hi]
      rw [h2]
      refine ((hs.indexes t htd).flatMap_right _).trans ?_
      rw [List.flatMap_map]
      refine flatMap_perm fun u hu => ?_
      refine ((hs.columns t htd u hu).flatMap_right _).trans (.of_eq ?_)
      unfold spread
      rw [numbered_zipIdx, ← List.map_eq_flatMap]
  constructor
  · intro x
    rw [hp.mem_iff, List.mem_flatMap]
    constructor
    · rintro ⟨t, h, hx⟩
      rw [List.mem_filter] at h
      obtain ⟨u, hu, rfl⟩ := List.mem_map.mp hx
      exact ⟨t, h.1, u, hu, (liteChosen_iff ht hn h.1).mp h.2, rfl⟩
    · rintro ⟨t, h1, u, hu, h3, rfl⟩
      exact ⟨t, List.mem_filter.mpr ⟨h1, (liteChosen_iff ht hn h1).mpr h3⟩, List.mem_map.mpr ⟨u, hu, rfl⟩⟩
  · exact hp.nodup_iff.mpr (nodup_of_keys hk)

theorem zipIdx_map_zipIdx {A B : Type} (g : A × Nat → B) (l : List A) (n : Nat) :
    ((l.zipIdx n).map g).zipIdx n = (l.zipIdx n).map fun x => (g x, x.2) := by
  induction l generalizing n with
  | nil => rfl
  | cons a l ih =>
    rw [List.zipIdx_cons, List.map_cons, List.zipIdx_cons, ih, List.map_cons]

theorem filterMap_refs {A : Type} (pre refs : List A) (cols : List Str) (h : refs.length = cols.length) :
    (cols.zipIdx pre.length).filterMap (fun x => (pre ++ refs)[x.2]?) = refs := by
  induction cols generalizing pre refs with
  | nil =>
    rw [List.length_eq_zero_iff.mp h]
    rfl
  | cons a cols ih =>
    cases refs with
    | nil => cases h
    | cons r refs =>
      rw [List.zipIdx_cons, List.filterMap_cons]
      have e : (pre ++ r :: refs)[pre.length]? = some r := by simp
      dsimp only
      rw [e]
      dsimp only
      have := ih (pre ++ [r]) refs (by simpa using h)
      rw [List.append_assoc, List.length_append] at this
      exact congrArg (r :: ·) this

/-- C110: the foreign keys of SQLite that are reported are those of the tables that are asked for,
each once, with the table that is referenced, the columns and the referenced columns in their order as
far as they were written, and the actions. -/
theorem sqlite_foreign_partial {f : Filter} {db : List LiteTable} {c : LiteInfo}
    (ht : OneOf f.tables f.excludeTables) (hs : LiteShows db c) (hv : LiteValid db) (hn : LitePlain db) :
    (∀ x, x ∈ liteForeign f c ↔ ∃ t ∈ db, ∃ k ∈ t.fkeys, LiteAsked f t ∧
      x = (⟨t.name, k.id, k.refTable, k.onUpdate, k.onDelete⟩, k.cols, k.refCols)) ∧
    (liteForeign f c).Nodup := by
  let pairs : LiteFkey → List (Str × Option Str) := fun k => k.cols.zipIdx.map fun x => (x.1, k.refCols[x.2]?)
  let key : LiteTable → LiteFkey → LiteForeign := fun t k => ⟨t.name, k.id, k.refTable, k.onUpdate, k.onDelete⟩
  let items : List (LiteForeign × List (Str × Option Str)) :=
    (db.filter (liteChosen f)).flatMap fun t => t.fkeys.map fun k => (key t k, pairs k)
  have hk : (items.map (·.1)).Nodup := by
    have e : items.map (·.1) = (db.filter (liteChosen f)).flatMap fun t => t.fkeys.map (key t) := by
      simp only [items, List.map_flatMap, List.map_map]
      rfl
    rw [e]
    refine parts_nodup hv.names _ (·.fkeys) key (fun _ _ _ _ e => congrArg (·.table) e) ?_
    intro t htd
    have h1 := (hv.fkeys t htd).1
    exact List.pairwise_map.mpr ((List.pairwise_map.mp h1).imp fun h e => h (congrArg LiteForeign.id e))
  have hp := grouped_perm 0 hk (rows := (liteNamed f c.rows).flatMap fun t => (c.fkeys t).map fun r =>
      ((⟨t, r.id, r.table, r.onUpdate, r.onDelete⟩ : LiteForeign), r.seq, r.from, r.to)) (by
    intro i hi
    obtain ⟨t, h, hi⟩ := List.mem_flatMap.mp hi
    obtain ⟨k, hkm, rfl⟩ := List.mem_map.mp hi
    have h1 := ((hv.fkeys t (List.mem_filter.mp h).1).2 k hkm).1
    intro e
    have := congrArg List.length e
    simp only [pairs, List.length_map, List.length_zipIdx, List.length_nil] at this
    exact h1 (List.length_eq_zero_iff.mp this)) (by
    refine ((liteNamed_perm hs).flatMap_right _).trans ?_
    simp only [items]
    rw [List.flatMap_map, List.flatMap_assoc]
    refine flatMap_perm fun t h => ?_
    have htd := (List.mem_filter.mp h).1
    rw [List.flatMap_map]
    refine ((hs.fkeys t htd).map _).trans (.of_eq ?_)
    rw [List.map_flatMap]
    refine flatMap_congr fun k _ => ?_
    unfold spread
    simp only [pairs]
    rw [numbered_zipIdx, zipIdx_map_zipIdx, List.map_map, List.map_map, List.map_map]
    rfl)
  have hpv := hp.map (fun g : LiteForeign × List (Str × Option Str) => (g.1, g.2.map (·.1), g.2.filterMap (·.2)))
  have hcols : ∀ k, (pairs k).map (·.1) = k.cols := by
    intro k
    simp only [pairs]
    rw [List.map_map]
    exact List.zipIdx_map_fst 0 k.cols
  have hrefs : ∀ t ∈ db, ∀ k ∈ t.fkeys, (pairs k).filterMap (·.2) = k.refCols := by
    intro t htd k hkm
    simp only [pairs]
    rw [List.filterMap_map]
    rcases ((hv.fkeys t htd).2 k hkm).2 with h | h
    · rw [h, List.filterMap_eq_nil_iff]
      intro x _
      simp
    · exact filterMap_refs [] k.refCols k.cols h
  constructor
  · intro x
    unfold liteForeign
    rw [hpv.mem_iff, List.mem_map]
    constructor
    · rintro ⟨g, hg, rfl⟩
      obtain ⟨t, h, hg⟩ := List.mem_flatMap.mp hg
      rw [List.mem_filter] at h
      obtain ⟨k, hkm, rfl⟩ := List.mem_map.mp hg
      refine ⟨t, h.1, k, hkm, (liteChosen_iff ht hn h.1).mp h.2, ?_⟩
      dsimp only
      rw [hcols, hrefs t h.1 k hkm]
    · rintro ⟨t, h1, k, hkm, h3, rfl⟩
      refine ⟨(key t k, pairs k), List.mem_flatMap.mpr ⟨t, List.mem_filter.mpr ⟨h1, (liteChosen_iff ht hn h1).mpr h3⟩,
        List.mem_map.mpr ⟨k, hkm, rfl⟩⟩, ?_⟩
      dsimp only
      rw [hcols, hrefs t h1 k hkm]
  · unfold liteForeign
    refine hpv.nodup_iff.mpr (map_nodup_of (nodup_of_keys hk) ?_)
    intro i hi j hj e
    exact key_inj hk hi hj (congrArg (·.1) e)

end Sqddl.Scripts
