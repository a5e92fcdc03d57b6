import Verif.Lemmas.GroupedTies
import Verif.Spec.ScriptIndexes
import Verif.Props.ScriptRows

/-!
# C110, C111: the constraints and indexes of SQL Server are reported as they were defined
-/

namespace Sqddl.Scripts
open OwnSpec IndexSpec

theorem pairs_nodup {A B K L : Type} {db : List A} {g : A → List B} {ka : A → K} {kb : B → L}
    (h1 : (db.map ka).Nodup) (h2 : ∀ a ∈ db, ((g a).map kb).Nodup) :
    ((db.flatMap fun a => (g a).map (a, ·)).map fun p => (ka p.1, kb p.2)).Nodup := by
  rw [List.map_flatMap]
  unfold List.Nodup
  rw [List.pairwise_flatMap]
  constructor
  · intro a ha
    rw [List.map_map]
    refine List.pairwise_map.mpr ((List.pairwise_map.mp (h2 a ha)).imp ?_)
    intro x y h e
    exact h (congrArg (·.2) e)
  · refine (List.pairwise_map.mp h1).imp ?_
    intro a b hab x hx y hy e
    rw [List.map_map] at hx hy
    obtain ⟨u, _, rfl⟩ := List.mem_map.mp hx
    obtain ⟨v, _, rfl⟩ := List.mem_map.mp hy
    exact hab (congrArg (·.1) e)

theorem mem_indexesOf {db : List MsTab} {p : MsTab × MsIdx} :
    p ∈ indexesOf db ↔ p.1 ∈ db ∧ p.2 ∈ p.1.indexes := by
  unfold indexesOf
  rw [List.mem_flatMap]
  constructor
  · rintro ⟨t, ht, h⟩
    obtain ⟨i, hi, rfl⟩ := List.mem_map.mp h
    exact ⟨ht, hi⟩
  · rintro ⟨h1, h2⟩
    exact ⟨p.1, h1, List.mem_map.mpr ⟨p.2, h2, rfl⟩⟩

theorem mem_fkeysOf {db : List MsTab} {p : MsTab × MsFkey} :
    p ∈ fkeysOf db ↔ p.1 ∈ db ∧ p.2 ∈ p.1.fkeys := by
  unfold fkeysOf
  rw [List.mem_flatMap]
  constructor
  · rintro ⟨t, ht, h⟩
    obtain ⟨i, hi, rfl⟩ := List.mem_map.mp h
    exact ⟨ht, hi⟩
  · rintro ⟨h1, h2⟩
    exact ⟨p.1, h1, List.mem_map.mpr ⟨p.2, h2, rfl⟩⟩

/-- the row of a table -/
def tableRow (t : MsTab) : MsTable := ⟨t.id, t.schema, t.name⟩

theorem table_one {db : List MsTab} {c : MsInfo} {R : Type} (hs : MsShows db c) (hv : MsValid db) {t : MsTab}
    (ht : t ∈ db) (g : MsTable → List R) :
    (c.tables.flatMap fun x => if (x.id == t.id) = true then g x else []) = g (tableRow t) := by
  have hn : (c.tables.map (·.id)).Nodup := by
    refine (hs.tables.map _).nodup_iff.mpr ?_
    rw [List.map_map]
    exact hv.ids
  have hm : tableRow t ∈ c.tables := hs.tables.mem_iff.mpr (List.mem_map.mpr ⟨t, ht, rfl⟩)
  rw [flatMap_only hm ((List.pairwise_map.mp hn).imp fun h e => h (by rw [e])), if_pos (by simp [tableRow])]
  intro x hx hne
  refine if_neg fun h => hne ?_
  exact map_nodup_inj hn hx hm (by simpa [tableRow] using h)

theorem column_one {db : List MsTab} {c : MsInfo} {R : Type} (hs : MsShows db c) (hv : MsValid db) {t : MsTab}
    (ht : t ∈ db) {x : Nat × Str} (hx : x ∈ t.columns) (g : MsColumn → List R) :
    (c.columns.flatMap fun y => if (y.id == x.1 && y.table == t.id) = true then g y else []) =
      g ⟨t.id, x.1, x.2⟩ := by
  have hn : (c.columns.map fun y => (y.table, y.id)).Nodup := by
    refine (hs.columns.map _).nodup_iff.mpr ?_
    have := pairs_nodup (g := MsTab.columns) (ka := MsTab.id) (kb := fun x => x.1) hv.ids hv.columnIds
    rw [List.map_flatMap] at this ⊢
    simp only [List.map_map] at this ⊢
    exact this
  have hm : (⟨t.id, x.1, x.2⟩ : MsColumn) ∈ c.columns :=
    hs.columns.mem_iff.mpr (List.mem_flatMap.mpr ⟨t, ht, List.mem_map.mpr ⟨x, hx, rfl⟩⟩)
  rw [flatMap_only hm ((List.pairwise_map.mp hn).imp fun h e => h (by rw [e])), if_pos (by simp)]
  intro y hy hne
  refine if_neg fun h => hne ?_
  simp only [Bool.and_eq_true, beq_iff_eq] at h
  exact map_nodup_inj hn hy hm (by simp only [h.1, h.2])

/-! ## Columns of indexes -/

/-- number, column, direction and whether it is included, for every column of an index -/
def partRows (i : MsIdx) : List (Nat × (Nat × Str) × Bool × Bool) :=
  (i.partition.map fun x => (0, x, false, false)) ++ (i.included.map fun x => (0, x, false, true)) ++
  (i.keys.zipIdx 1).map fun x => (x.2, x.1.1, x.1.2, false)

theorem indexColumnRows_eq (p : MsTab × MsIdx) :
    indexColumnRows p = (partRows p.2).map fun y => ⟨p.1.id, p.2.id, y.2.1.1, y.1, y.2.2.1, y.2.2.2⟩ := by
  unfold indexColumnRows partRows
  simp only [List.map_append, List.map_map]
  rfl

theorem partRows_columns {db : List MsTab} (hv : MsValid db) {p : MsTab × MsIdx} (hp : p ∈ indexesOf db) :
    ∀ y ∈ partRows p.2, y.2.1 ∈ p.1.columns := by
  obtain ⟨h1, h2⟩ := mem_indexesOf.mp hp
  intro y hy
  unfold partRows at hy
  rcases List.mem_append.mp hy with hy | hy
  · rcases List.mem_append.mp hy with hy | hy
    · obtain ⟨x, hx, rfl⟩ := List.mem_map.mp hy
      exact hv.otherColumns p.1 h1 p.2 h2 x (List.mem_append_right _ hx)
    · obtain ⟨x, hx, rfl⟩ := List.mem_map.mp hy
      exact hv.otherColumns p.1 h1 p.2 h2 x (List.mem_append_left _ hx)
  · obtain ⟨x, hx, rfl⟩ := List.mem_map.mp hy
    have hm : x.1 ∈ p.2.keys := by
      have : x.1 ∈ (p.2.keys.zipIdx 1).map (·.1) := List.mem_map.mpr ⟨x, hx, rfl⟩
      rwa [show (p.2.keys.zipIdx 1).map (·.1) = p.2.keys from List.zipIdx_map_fst 1 p.2.keys] at this
    exact hv.keyColumns p.1 h1 p.2 h2 x.1 hm

/-- the columns that are not key columns -/
def zeroParts (i : MsIdx) : List MsPart :=
  (i.partition.map fun x => ⟨x.2, false, false⟩) ++ i.included.map fun x => ⟨x.2, false, true⟩

/-- the key columns -/
def keyParts (i : MsIdx) : List MsPart := i.keys.map fun k => ⟨k.1.2, k.2, false⟩

/-- what the rows are grouped by, with the columns -/
def msItems {K : Type} (key : MsIndex → MsTable → Option K) (db : List MsTab) :
    List (K × List MsPart × List MsPart) :=
  (indexesOf db).flatMap fun p => (key (indexRow p) (tableRow p.1)).toList.map fun k =>
    (k, zeroParts p.2, keyParts p.2)

theorem msJoined_perm {K : Type} {key : MsIndex → MsTable → Option K} {db : List MsTab} {c : MsInfo}
    (hs : MsShows db c) (hv : MsValid db) : (msJoined c key).Perm ((msItems key db).flatMap tied) := by
  have hpk := pairs_nodup (g := MsTab.indexes) (ka := MsTab.id) (kb := MsIdx.id) hv.ids hv.indexIds
  have hpn : (indexesOf db).Nodup := (List.pairwise_map.mp hpk).imp fun h e => h (by rw [e])
  unfold msJoined
  refine (join_perm _ hpn hs.indexes hs.indexColumns ?_).trans (.of_eq ?_)
  · intro p hp q hq hqp x hx
    rw [indexColumnRows_eq] at hx
    obtain ⟨y, _, rfl⟩ := List.mem_map.mp hx
    rw [List.flatMap_eq_nil_iff]
    intro t _
    rw [List.flatMap_eq_nil_iff]
    intro col _
    refine if_neg ?_
    intro h
    simp only [Bool.and_eq_true, beq_iff_eq, indexRow] at h
    exact hqp (map_nodup_inj hpk hq hp (by simp only [h.1.2.1, h.1.2.2]))
  · unfold msItems
    rw [List.flatMap_assoc]
    refine flatMap_congr fun p hp => ?_
    rw [indexColumnRows_eq, List.flatMap_map, List.flatMap_map]
    have hpd := (mem_indexesOf.mp hp).1
    rw [flatMap_congr (g := fun y => (key (indexRow p) (tableRow p.1)).toList.map fun k =>
      (k, y.1, ⟨y.2.1.2, y.2.2.1, y.2.2.2⟩))]
    · cases key (indexRow p) (tableRow p.1) with
      | none => simp
      | some k =>
        simp only [Option.toList_some, List.map_cons, List.map_nil, List.flatMap_cons, List.flatMap_nil,
          List.append_nil]
        rw [← List.map_eq_flatMap]
        unfold partRows tied zeroParts keyParts
        dsimp only
        rw [numbered_zipIdx, List.zipIdx_map]
        simp only [List.map_append, List.map_map]
        rfl
    · intro y hy
      have hc := partRows_columns hv hp y hy
      have e : ∀ (t : MsTable) (col : MsColumn),
          (t.id == (indexRow p).table && (p.2.id == (indexRow p).id && p.1.id == (indexRow p).table) &&
            (col.id == y.2.1.1 && col.table == (indexRow p).table)) =
          ((t.id == p.1.id) && (col.id == y.2.1.1 && col.table == p.1.id)) := by
        intro t col
        simp [indexRow]
      dsimp only
      simp only [e]
      have h1 : ∀ t : MsTable, (c.columns.flatMap fun col =>
          if (t.id == p.1.id && (col.id == y.2.1.1 && col.table == p.1.id)) = true then
            (key (indexRow p) t).toList.map fun k => (k, y.1, (⟨col.name, y.2.2.1, y.2.2.2⟩ : MsPart))
          else []) = if (t.id == p.1.id) = true then
            (key (indexRow p) t).toList.map fun k => (k, y.1, (⟨y.2.1.2, y.2.2.1, y.2.2.2⟩ : MsPart))
          else [] := by
        intro t
        by_cases h : (t.id == p.1.id) = true
        · simp only [h, Bool.true_and, if_true]
          exact column_one hs hv hpd hc fun col =>
            (key (indexRow p) t).toList.map fun k => (k, y.1, (⟨col.name, y.2.2.1, y.2.2.2⟩ : MsPart))
        · have h' : (t.id == p.1.id) = false := by simpa using h
          simp only [h', Bool.false_and, if_neg Bool.false_ne_true]
          simp
      simp only [h1]
      exact table_one hs hv hpd fun t =>
        (key (indexRow p) t).toList.map fun k => (k, y.1, (⟨y.2.1.2, y.2.2.1, y.2.2.2⟩ : MsPart))

theorem mem_msItems {K : Type} {key : MsIndex → MsTable → Option K} {db : List MsTab}
    {x : K × List MsPart × List MsPart} : x ∈ msItems key db ↔
      ∃ t ∈ db, ∃ i ∈ t.indexes, key (indexRow (t, i)) (tableRow t) = some x.1 ∧
        x.2 = (zeroParts i, keyParts i) := by
  unfold msItems
  rw [List.mem_flatMap]
  constructor
  · rintro ⟨p, hp, h⟩
    obtain ⟨k, hk, rfl⟩ := List.mem_map.mp h
    obtain ⟨h1, h2⟩ := mem_indexesOf.mp hp
    exact ⟨p.1, h1, p.2, h2, by simpa using hk, rfl⟩
  · rintro ⟨t, ht, i, hi, h1, h2⟩
    exact ⟨(t, i), mem_indexesOf.mpr ⟨ht, hi⟩, List.mem_map.mpr ⟨x.1, by simpa using h1, Prod.ext rfl h2.symm⟩⟩

/-- The keys are different if those of a table with the same name and number are. -/
theorem msItems_nodup {K : Type} {key : MsIndex → MsTable → Option K} {db : List MsTab} (hv : MsValid db)
    (hkey : ∀ p ∈ indexesOf db, ∀ q ∈ indexesOf db, ∀ k, key (indexRow p) (tableRow p.1) = some k →
      key (indexRow q) (tableRow q.1) = some k →
      p.1.schema = q.1.schema ∧ p.1.name = q.1.name ∧ p.2.name = q.2.name) :
    ((msItems key db).map (·.1)).Nodup := by
  have hpk := pairs_nodup (g := MsTab.indexes) (ka := MsTab.id) (kb := MsIdx.id) hv.ids hv.indexIds
  have hpn : (indexesOf db).Nodup := (List.pairwise_map.mp hpk).imp fun h e => h (by rw [e])
  have hpm := pairs_nodup (g := MsTab.indexes) (ka := fun t => (t.schema, t.name)) (kb := MsIdx.name) hv.names
    hv.indexNames
  unfold msItems
  rw [List.map_flatMap]
  unfold List.Nodup
  rw [List.pairwise_flatMap]
  constructor
  · intro p _
    cases key (indexRow p) (tableRow p.1) <;> simp
  · refine List.Pairwise.imp_of_mem ?_ hpn
    intro p q hp hq hpq x hx y hy e
    simp only [List.map_map] at hx hy
    obtain ⟨k, hk, rfl⟩ := List.mem_map.mp hx
    obtain ⟨k', hk', rfl⟩ := List.mem_map.mp hy
    simp only [Function.comp] at e
    subst e
    obtain ⟨h1, h2, h3⟩ := hkey p hp q hq k (by simpa using hk) (by simpa using hk')
    exact hpq (map_nodup_inj hpm hp hq (by simp only [h1, h2, h3]))

/-! ## Tables that are asked for -/

/-- The tables that the server brings along are those named spt... and msreplication.... -/
def MsPlain (fold : Char → Char) (shipped : MsTab → Prop) (db : List MsTab) : Prop :=
  ∀ t ∈ db, shipped t ↔ Longer fold b!"spt" t.name ∨ Longer fold b!"msreplication" t.name

/-- the table is asked for -/
def MsAsked (shipped : MsTab → Prop) (f : Filter) (t : MsTab) : Prop :=
  (f.system = true ∨ ¬ shipped t) ∧ Wanted f.schemas f.excludeSchemas t.schema ∧
    Wanted f.tables f.excludeTables t.name

theorem msShown_iff {fold : Char → Char} {shipped : MsTab → Prop} {f : Filter} {db : List MsTab}
    (hf : OneOf f.schemas f.excludeSchemas) (ht : OneOf f.tables f.excludeTables) (hn : MsPlain fold shipped db)
    {t : MsTab} (h : t ∈ db) : msShown fold f (tableRow t) = true ↔ MsAsked shipped f t := by
  have l1 : like fold b!"spt_%" t.name = true ↔ Longer fold b!"spt" t.name :=
    like_more fold (lit := b!"spt") (by decide) t.name
  have l2 : like fold b!"msreplication_%" t.name = true ↔ Longer fold b!"msreplication" t.name :=
    like_more fold (lit := b!"msreplication") (by decide) t.name
  unfold msShown MsAsked
  simp only [tableRow, Bool.and_eq_true, Bool.or_eq_true, Bool.not_eq_true', ← Bool.not_eq_true, l1, l2,
    passes_iff hf, passes_iff ht, hn t h, not_or, and_assoc]

/-! ## Indexes -/

theorem msIndexKey_some {fold : Char → Char} {f : Filter} {i : MsIndex} {t : MsTable} {k : MsIndexKey} :
    msIndexKey fold f i t = some k ↔ ∃ n, i.name = some n ∧ i.primary = false ∧ i.uniqueConstraint = false ∧
      msShown fold f t = true ∧ k = ⟨t.schema, t.name, n, i.type, i.unique, i.filter.getD []⟩ := by
  unfold msIndexKey
  cases i.name with
  | none => simp
  | some n =>
    dsimp only
    by_cases h : (!i.primary && !i.uniqueConstraint && msShown fold f t) = true
    · rw [if_pos h]
      simp only [Bool.and_eq_true, Bool.not_eq_true'] at h
      constructor
      · intro e
        exact ⟨n, rfl, h.1.1, h.1.2, h.2, (Option.some.inj e).symm⟩
      · rintro ⟨m, e, _, _, _, rfl⟩
        rw [Option.some.inj e]
    · rw [if_neg h]
      constructor
      · intro e; cases e
      · rintro ⟨m, e, h1, h2, h3, rfl⟩
        exact absurd (by simp [h1, h2, h3]) h

theorem msSplit_eq {z keys : List MsPart} (hz : ∀ p ∈ z, p.included = true) (hk : ∀ p ∈ keys, p.included = false) :
    msSplit (z ++ keys) = (keys.map (·.name), z.map (·.name), keys.map (·.descending)) := by
  have e1 : (z ++ keys).filter (fun p => !p.included) = keys := by
    rw [List.filter_append, List.filter_eq_nil_iff.mpr, List.filter_eq_self.mpr, List.nil_append]
    · intro p hp; rw [hk p hp]; rfl
    · intro p hp; rw [hz p hp]; decide
  have e2 : (z ++ keys).filter (·.included) = z := by
    rw [List.filter_append, List.filter_eq_self.mpr, List.filter_eq_nil_iff.mpr, List.append_nil]
    · intro p hp; rw [hk p hp]; decide
    · intro p hp; exact hz p hp
  unfold msSplit
  rw [e1, e2, List.map_append, List.drop_left' (List.length_map _)]

/-- C111: the indexes of SQL Server that are reported are those of the tables that are asked for that
were not made for constraints, each once, with its key columns in their order and their directions, its
included columns in some order, and its condition, if all columns are one or the other. -/
theorem sqlserver_index_columns_partial {fold : Char → Char} {shipped : MsTab → Prop} {f : Filter}
    {db : List MsTab} {c : MsInfo} (hf : OneOf f.schemas f.excludeSchemas) (ht : OneOf f.tables f.excludeTables)
    (hs : MsShows db c) (hv : MsValid db) (hn : MsPlain fold shipped db) (ha : Aligned db) :
    (∀ x ∈ msIndexes fold f c, ∃ t ∈ db, ∃ i ∈ t.indexes, ∃ n, i.name = some n ∧ i.primary = false ∧
      i.uniqueConstraint = false ∧ MsAsked shipped f t ∧
      x.1 = ⟨t.schema, t.name, n, i.type, i.unique, i.filter.getD []⟩ ∧ x.2.1 = i.keys.map (·.1.2) ∧
      x.2.2.1.Perm (i.included.map (·.2)) ∧ x.2.2.2 = i.keys.map (·.2)) ∧
    (∀ t ∈ db, ∀ i ∈ t.indexes, ∀ n, i.name = some n → i.primary = false → i.uniqueConstraint = false →
      MsAsked shipped f t → ∃ x ∈ msIndexes fold f c,
        x.1 = ⟨t.schema, t.name, n, i.type, i.unique, i.filter.getD []⟩) ∧
    ((msIndexes fold f c).map (·.1)).Nodup := by
  have hnd : ((msItems (msIndexKey fold f) db).map (·.1)).Nodup := by
    refine msItems_nodup hv ?_
    intro p _ q _ k h1 h2
    obtain ⟨n, a1, _, _, _, e1⟩ := msIndexKey_some.mp h1
    obtain ⟨m, a2, _, _, _, e2⟩ := msIndexKey_some.mp h2
    rw [e1] at e2
    simp only [tableRow, MsIndexKey.mk.injEq] at e2
    simp only [indexRow] at a1 a2
    exact ⟨e2.1, e2.2.1, by rw [a1, a2, e2.2.2.1]⟩
  have hne : ∀ x ∈ msItems (msIndexKey fold f) db, x.2.1 ≠ [] ∨ x.2.2 ≠ [] := by
    intro x hx
    obtain ⟨t, htd, i, hi, h1, h2⟩ := mem_msItems.mp hx
    obtain ⟨n, a1, _⟩ := msIndexKey_some.mp h1
    rw [h2]
    rcases hv.keys t htd i hi (by simp only [indexRow] at a1; rw [a1]; simp) with h | h | h
    · exact .inr fun e => h (List.map_eq_nil_iff.mp e)
    · exact .inl fun e => h (List.map_eq_nil_iff.mp (List.append_eq_nil_iff.mp e).2)
    · exact .inl fun e => h (List.map_eq_nil_iff.mp (List.append_eq_nil_iff.mp e).1)
  obtain ⟨g1, g2, g3⟩ := grouped_tied hnd hne (msJoined_perm hs hv)
  refine ⟨?_, ?_, ?_⟩
  · intro x hx
    obtain ⟨g, hg, rfl⟩ := List.mem_map.mp hx
    obtain ⟨y, hy, e1, z, hz, e2⟩ := g1 g hg
    obtain ⟨t, htd, i, hi, h1, h2⟩ := mem_msItems.mp hy
    obtain ⟨n, a1, a2, a3, a4, a5⟩ := msIndexKey_some.mp h1
    rw [h2] at hz e2
    have hzero : zeroParts i = i.included.map fun x => ⟨x.2, false, true⟩ := by
      unfold zeroParts
      rw [ha t htd i hi]
      rfl
    dsimp only at hz e2 ⊢
    rw [hzero] at hz
    rw [e2, msSplit_eq]
    · refine ⟨t, htd, i, hi, n, a1, a2, a3, (msShown_iff hf ht hn htd).mp a4, e1.trans a5, ?_, ?_, ?_⟩
      · simp only [keyParts, List.map_map]; rfl
      · refine (hz.map _).trans (.of_eq ?_)
        rw [List.map_map]; rfl
      · simp only [keyParts, List.map_map]; rfl
    · intro p hp
      obtain ⟨k, _, rfl⟩ := List.mem_map.mp (hz.mem_iff.mp hp)
      rfl
    · intro p hp
      obtain ⟨k, _, rfl⟩ := List.mem_map.mp hp
      rfl
  · intro t htd i hi n h1 h2 h3 h4
    have hm : ((⟨t.schema, t.name, n, i.type, i.unique, i.filter.getD []⟩ : MsIndexKey), zeroParts i, keyParts i) ∈
        msItems (msIndexKey fold f) db :=
      mem_msItems.mpr ⟨t, htd, i, hi,
        msIndexKey_some.mpr ⟨n, h1, h2, h3, (msShown_iff hf ht hn htd).mpr h4, rfl⟩, rfl⟩
    obtain ⟨x, hx, e⟩ := g2 _ hm
    exact ⟨_, List.mem_map.mpr ⟨x, hx, rfl⟩, e⟩
  · unfold msIndexes
    rw [List.map_map]
    exact g3

/-! ## Primary keys and unique constraints -/

/-- it is a primary key, or a unique constraint -/
def isKey (primary : Bool) (i : MsIdx) : Prop := if primary then i.primary = true else i.uniqueConstraint = true

theorem msKey_some {b : Bool} {fold : Char → Char} {f : Filter} {t : MsTab} {i : MsIdx}
    {k : Str × Str × Option Str × Nat} : msKey b fold f (indexRow (t, i)) (tableRow t) = some k ↔
      isKey b i ∧ msShown fold f (tableRow t) = true ∧ k = (t.schema, t.name, i.name, i.id) := by
  unfold msKey isKey
  cases b <;> simp only [indexRow, tableRow, if_true, if_neg Bool.false_ne_true] <;>
  · constructor
    · intro h
      split at h
      · rename_i hc
        rw [Bool.and_eq_true] at hc
        exact ⟨hc.1, hc.2, (Option.some.inj h).symm⟩
      · cases h
    · rintro ⟨h1, h2, rfl⟩
      rw [h1, h2]
      rfl

/-- C110: the primary keys (or unique constraints) of SQL Server that are reported are those of the
tables that are asked for, each once, with its columns in their order and whether it is clustered. -/
theorem sqlserver_keys_partial (b : Bool) {fold : Char → Char} {shipped : MsTab → Prop} {f : Filter}
    {db : List MsTab} {c : MsInfo} (hf : OneOf f.schemas f.excludeSchemas) (ht : OneOf f.tables f.excludeTables)
    (hs : MsShows db c) (hv : MsValid db) (hn : MsPlain fold shipped db) (ha : Aligned db) :
    (∀ x, x ∈ msKeys b fold f c ↔ ∃ t ∈ db, ∃ i ∈ t.indexes, isKey b i ∧ MsAsked shipped f t ∧
      x = ((t.schema, t.name, i.name, i.id == 1), i.keys.map (·.1.2))) ∧
    (msKeys b fold f c).Nodup := by
  have hcon : ∀ t ∈ db, ∀ i ∈ t.indexes, isKey b i → zeroParts i = [] ∧ i.keys ≠ [] := by
    intro t htd i hi h
    obtain ⟨h1, h2⟩ := hv.constraints t htd i hi (by unfold isKey at h; cases b <;> simp at h <;> simp [h])
    have h3 := ha t htd i hi
    refine ⟨by unfold zeroParts; rw [h1, h3]; rfl, ?_⟩
    rcases hv.keys t htd i hi h2 with h | h | h
    · exact h
    · exact absurd h1 h
    · exact absurd h3 h
  have hitem : ∀ p ∈ indexesOf db, ∀ q ∈ indexesOf db, ∀ k, msKey b fold f (indexRow p) (tableRow p.1) = some k →
      msKey b fold f (indexRow q) (tableRow q.1) = some k →
      p.1.schema = q.1.schema ∧ p.1.name = q.1.name ∧ p.2.name = q.2.name := by
    intro p _ q _ k h1 h2
    obtain ⟨_, _, e1⟩ := msKey_some.mp h1
    obtain ⟨_, _, e2⟩ := msKey_some.mp h2
    rw [e1] at e2
    simp only [Prod.mk.injEq] at e2
    exact ⟨e2.1, e2.2.1, e2.2.2.1⟩
  have hnd := msItems_nodup hv hitem
  let items := (msItems (msKey b fold f) db).map fun x => (x.1, x.2.2)
  have hin : (items.map (·.1)).Nodup := by
    simp only [items]
    rw [List.map_map]
    exact hnd
  have hp : (grouped (msJoined c (msKey b fold f))).Perm items := by
    refine grouped_perm 1 hin ?_ ((msJoined_perm hs hv).trans (.of_eq ?_))
    · intro y hy
      obtain ⟨x, hx, rfl⟩ := List.mem_map.mp hy
      obtain ⟨t, htd, i, hi, h1, h2⟩ := mem_msItems.mp hx
      obtain ⟨a1, _, _⟩ := msKey_some.mp h1
      rw [h2]
      exact fun e => (hcon t htd i hi a1).2 (List.map_eq_nil_iff.mp e)
    · simp only [items]
      rw [List.flatMap_map]
      refine flatMap_congr fun x hx => ?_
      obtain ⟨t, htd, i, hi, h1, h2⟩ := mem_msItems.mp hx
      obtain ⟨a1, _, _⟩ := msKey_some.mp h1
      unfold tied spread
      rw [h2, (hcon t htd i hi a1).1]
      rfl
  have hmem : ∀ y, y ∈ items ↔ ∃ t ∈ db, ∃ i ∈ t.indexes, isKey b i ∧ MsAsked shipped f t ∧
      y = ((t.schema, t.name, i.name, i.id), keyParts i) := by
    intro y
    simp only [items]
    rw [List.mem_map]
    constructor
    · rintro ⟨x, hx, rfl⟩
      obtain ⟨t, htd, i, hi, h1, h2⟩ := mem_msItems.mp hx
      obtain ⟨a1, a2, a3⟩ := msKey_some.mp h1
      exact ⟨t, htd, i, hi, a1, (msShown_iff hf ht hn htd).mp a2, by rw [a3, h2]⟩
    · rintro ⟨t, htd, i, hi, a1, a2, rfl⟩
      exact ⟨(_, zeroParts i, keyParts i), mem_msItems.mpr ⟨t, htd, i, hi,
        msKey_some.mpr ⟨a1, (msShown_iff hf ht hn htd).mpr a2, rfl⟩, rfl⟩, rfl⟩
  have hq : (msKeys b fold f c).Perm (items.map fun g =>
      ((g.1.1, g.1.2.1, g.1.2.2.1, g.1.2.2.2 == 1), g.2.map (·.name))) := hp.map _
  constructor
  · intro x
    rw [hq.mem_iff, List.mem_map]
    constructor
    · rintro ⟨y, hy, rfl⟩
      obtain ⟨t, htd, i, hi, a1, a2, rfl⟩ := (hmem y).mp hy
      exact ⟨t, htd, i, hi, a1, a2, by simp only [keyParts, List.map_map]; rfl⟩
    · rintro ⟨t, htd, i, hi, a1, a2, rfl⟩
      exact ⟨_, (hmem _).mpr ⟨t, htd, i, hi, a1, a2, rfl⟩, by simp only [keyParts, List.map_map]; rfl⟩
  · refine hq.nodup_iff.mpr (map_nodup_of (nodup_of_keys hin) ?_)
    intro x hx y hy e
    obtain ⟨t, htd, i, hi, _, _, rfl⟩ := (hmem x).mp hx
    obtain ⟨t', htd', i', hi', _, _, rfl⟩ := (hmem y).mp hy
    simp only [Prod.mk.injEq] at e
    have e1 : t = t' := map_nodup_inj hv.names htd htd' (by simp only [e.1.1, e.1.2.1])
    subst e1
    have e2 : i = i' := map_nodup_inj (hv.indexNames t htd) hi hi' e.1.2.2.1
    rw [e2]

end Sqddl.Scripts
