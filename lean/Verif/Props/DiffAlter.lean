import Verif.Props.Diff

/-!
# What a generated migration changes in existing tables

C33-C36 for MySQL, Postgres and SQL Server: the fields of the alterTables, and two equal catalogs.
-/

namespace Sqddl
open CatalogSpec Go

/-! ## Fields of the alterTables -/

/-- A field of the alterTables that is part of the condition under which they are kept. -/
theorem alters_field {β : Type} {d : Dialect} (hd : Server d) {src dest : Catalog} (hsrc : Ok src)
    (hdest : Ok dest) (drop : Bool) (f : AlterTable → List β)
    (hf : ∀ a : AlterTable, a.worthKeeping = false → f a = [])
    (g : Table × Table → List β)
    (hg : ∀ p ∈ commonTables src dest,
      f (alterTableOf d (diffEnv src dest drop) p.1 p.2) = g p) :
    (((diffEvents d src dest drop).filterMap Ev.alter?).flatMap fun a =>
      (f a).map fun x => (a.destTable, x)) =
    (commonTables src dest).flatMap fun p => (g p).map fun x => (p.2, x) := by
  rw [alters_eq hd hsrc hdest, List.flatMap_assoc]
  refine flatMap_congr' fun p hp => ?_
  have h2 := alterTableOf_destTable hd (src := src) (dest := dest) drop p
  dsimp only
  split
  · rw [List.flatMap_cons, hg p hp, h2]; simp
  · rename_i h
    rw [← hg p hp, hf _ (by simpa using h)]; rfl

section
variable {src dest : Catalog} (hsrc : Ok src) (hdest : Ok dest) (drop : Bool)
include hsrc hdest

/-- MySQL and Postgres: exactly the indexes that are missing in the source are created, in the
order of the destination. -/
theorem createIndexes_exact {d : Dialect} (hd : d = .mysql ∨ d = .postgres) :
    (((diffEvents d src dest drop).filterMap Ev.alter?).flatMap fun a =>
      a.createIndexes.map fun x => (a.destTable, x)) =
    (commonTables src dest).flatMap fun p =>
      ((liveIndexes p.2).filter fun x => !hasIndex p.1 x.indexName).map fun x => (p.2, x) := by
  refine alters_field (by rcases hd with rfl | rfl <;> simp [Server]) hsrc hdest drop
    (·.createIndexes) (fun a h => ?_) _ (fun p hp => ?_)
  · simp [AlterTable.worthKeeping] at h; grind
  · have := missingIndexes_eq hsrc (inCatalog_live (mem_commonTables hp).1) p.2
    rcases hd with rfl | rfl <;> exact this

/-- MySQL and Postgres: with dropObjects exactly the indexes that are missing in the destination
are dropped, each once; without, none. -/
theorem dropIndexes_exact {d : Dialect} (hd : d = .mysql ∨ d = .postgres) :
    (((diffEvents d src dest drop).filterMap Ev.alter?).flatMap fun a =>
      a.dropIndexes.map fun x => (a.destTable, x)) =
    (commonTables src dest).flatMap fun p =>
      (if drop then (liveIndexes p.1).filter fun x => !hasIndex p.2 x.indexName else []).map
        fun x => (p.2, x) := by
  refine alters_field (by rcases hd with rfl | rfl <;> simp [Server]) hsrc hdest drop
    (·.dropIndexes) (fun a h => ?_) _ (fun p hp => ?_)
  · simp [AlterTable.worthKeeping] at h; grind
  · have := surplusIndexes_eq hdest (inCatalog_live (mem_commonTables hp).2.1) p.1
    rw [← this]
    rcases hd with rfl | rfl <;> rfl

/-- Postgres: exactly the primary keys and unique constraints that are missing in the source are
added. -/
theorem pg_addConstraints_exact :
    (((diffEvents .postgres src dest drop).filterMap Ev.alter?).flatMap fun a =>
      a.addConstraints.map fun x => (a.destTable, x)) =
    (commonTables src dest).flatMap fun p =>
      ((liveConstraints p.2).filter fun c =>
        keyConstraint c && !hasConstraint p.1 c.constraintName).map fun x => (p.2, x) := by
  refine alters_field (by simp [Server]) hsrc hdest drop
    (·.addConstraints) (fun a h => ?_) _ (fun p hp => ?_)
  · simp [AlterTable.worthKeeping] at h; grind
  · have := missingConstraints_eq hsrc (inCatalog_live (mem_commonTables hp).1) p.2
    show (missingConstraints (newCatalogCache src) p.1 p.2).filter isKey = _
    rw [this, List.filter_filter]
    simp only [isKey_eq]

/-- Postgres: with dropObjects exactly the primary keys and unique constraints that are missing in
the destination are dropped. -/
theorem pg_dropConstraints_exact :
    (((diffEvents .postgres src dest true).filterMap Ev.alter?).flatMap fun a =>
      a.dropConstraints.map fun x => (a.destTable, x)) =
    (commonTables src dest).flatMap fun p =>
      ((liveConstraints p.1).filter fun c =>
        keyConstraint c && !hasConstraint p.2 c.constraintName).map fun x => (p.2, x) := by
  refine alters_field (by simp [Server]) hsrc hdest true
    (·.dropConstraints) (fun a h => ?_) _ (fun p hp => ?_)
  · simp [AlterTable.worthKeeping] at h; grind
  · have := surplusConstraints_eq hdest (inCatalog_live (mem_commonTables hp).2.1) p.1
    show (surplusConstraints (newCatalogCache dest) p.1 p.2).filter isKey ++
      pgReplacedPkey (diffEnv src dest true) p.1 p.2 = _
    rw [this, List.filter_filter, pgReplacedPkey]
    simp [isKey_eq, diffEnv]

omit hsrc hdest in
theorem pkeyChanged_eq (p : Constraint × Constraint) : pkeyChanged p = rekeyed p := by
  rw [Bool.eq_iff_iff]; simp [pkeyChanged, rekeyed]

/-- MySQL: the constraints that are dropped are, with dropObjects, the primary keys and unique
constraints that are missing in the destination, and in any case the primary keys whose columns
differ. -/
theorem mysql_dropConstraints_exact :
    (((diffEvents .mysql src dest drop).filterMap Ev.alter?).flatMap fun a =>
      a.dropConstraints.map fun x => (a.destTable, x)) =
    (commonTables src dest).flatMap fun p =>
      ((if drop then (liveConstraints p.1).filter fun c =>
        keyConstraint c && !hasConstraint p.2 c.constraintName else []) ++
      ((CatalogSpec.commonConstraints p.1 p.2).filter rekeyed).map (·.1)).map
        fun x => (p.2, x) := by
  refine alters_field (by simp [Server]) hsrc hdest drop
    (·.dropConstraints) (fun a h => ?_) _ (fun p hp => ?_)
  · simp [AlterTable.worthKeeping] at h; grind
  · have h1 := surplusConstraints_eq hdest (inCatalog_live (mem_commonTables hp).2.1) p.1
    have h2 := commonConstraints_eq hsrc (inCatalog_live (mem_commonTables hp).1) p.2
    show whenDrop _ ((surplusConstraints (newCatalogCache dest) p.1 p.2).filter isKey) ++
      ((commonConstraints (newCatalogCache src) p.1 p.2).filter pkeyChanged).map (·.1) = _
    rw [h1, h2, List.filter_filter, whenDrop]
    simp only [isKey_eq, diffEnv, funext pkeyChanged_eq]

/-- MySQL: the constraints that are added are the primary keys and unique constraints that are
missing in the source, and the primary keys whose columns differ. -/
theorem mysql_addConstraints_exact :
    (((diffEvents .mysql src dest drop).filterMap Ev.alter?).flatMap fun a =>
      a.addConstraints.map fun x => (a.destTable, x)) =
    (commonTables src dest).flatMap fun p =>
      ((liveConstraints p.2).filter fun c =>
        match (liveConstraints p.1).find? fun s => s.constraintName == c.constraintName with
        | none => keyConstraint c
        | some s => rekeyed (s, c)).map fun x => (p.2, x) := by
  refine alters_field (by simp [Server]) hsrc hdest drop
    (·.addConstraints) (fun a h => ?_) _ (fun p hp => ?_)
  · simp [AlterTable.worthKeeping] at h; grind
  · obtain ⟨s, hs, ht⟩ := inCatalog_live (mem_commonTables hp).1
    show mysqlAddConstraints (diffEnv src dest drop) p.1 p.2 = _
    have hl : liveConstraints p.2 = p.2.constraints.filter fun c => !c.ignore := rfl
    rw [mysqlAddConstraints, hl, List.filter_filter]
    refine List.filter_congr fun c _ => ?_
    have := getConstraint_find hsrc hs ht c.constraintName
    show (!c.ignore && (match ((newCatalogCache src).getConstraint p.1 c.constraintName).toOption with
      | none => isKey c
      | some s => pkeyChanged (s, c))) = _
    rw [this, Bool.and_comm]
    generalize List.find? _ _ = o
    cases o <;> simp [isKey_eq, pkeyChanged_eq]

/-- All three: the columns dropped from a table that is altered are, with dropObjects, exactly its
columns that are missing in the destination.  A table is not altered if it has surplus columns but
no other difference (`surplus_column_kept_refuted`). -/
theorem dropColumns_partial {d : Dialect} (hd : Server d) :
    ∀ a ∈ (diffEvents d src dest drop).filterMap Ev.alter?,
      (a.srcTable, a.destTable) ∈ commonTables src dest ∧
      a.dropColumns = if drop then
        (liveColumns a.srcTable).filter fun x => !hasColumn a.destTable x.columnName else [] := by
  intro a ha
  rw [alters_eq hd hsrc hdest] at ha
  obtain ⟨p, hp, ha⟩ := List.mem_flatMap.1 ha
  have h := surplusColumns_eq hdest (inCatalog_live (mem_commonTables hp).2.1) p.1
  dsimp only at ha
  split at ha
  · rw [List.mem_singleton] at ha
    subst ha
    have h1 : (alterTableOf d (diffEnv src dest drop) p.1 p.2).srcTable = p.1 := by
      rcases hd with rfl | rfl | rfl <;> rfl
    rw [h1, alterTableOf_destTable hd]
    refine ⟨hp, ?_⟩
    rw [← h]
    rcases hd with rfl | rfl | rfl <;> rfl
  · cases ha

/-- The tables that are altered are each altered once. -/
theorem alters_once {d : Dialect} (hd : Server d) :
    (((diffEvents d src dest drop).filterMap Ev.alter?).map fun a =>
      (a.destTable.tableSchema, a.destTable.tableName)).Nodup := by
  rw [alters_eq hd hsrc hdest, List.map_flatMap]
  have h : ∀ ps : List (Table × Table), (∀ p ∈ ps, p ∈ commonTables src dest) →
      (ps.flatMap fun p => List.map (fun a : AlterTable =>
        (a.destTable.tableSchema, a.destTable.tableName))
        (let a := alterTableOf d (diffEnv src dest drop) p.1 p.2
         if a.worthKeeping then [a] else [])).Sublist
      (ps.map fun p => (p.2.tableSchema, p.2.tableName)) := by
    intro ps hps
    induction ps with
    | nil => exact List.Sublist.refl _
    | cons p ps ih =>
      rw [List.flatMap_cons, List.map_cons]
      have ih := ih fun q hq => hps q (List.mem_cons_of_mem _ hq)
      dsimp only
      split
      · rw [List.map_cons, alterTableOf_destTable hd]
        exact ih.cons_cons _
      · exact ih.cons _
  refine List.Nodup.sublist (h _ fun _ hp => hp) ?_
  refine List.Nodup.sublist ?_ (liveTables_nodup hdest)
  rw [commonTables]
  generalize liveTables dest = ts
  induction ts with
  | nil => exact List.Sublist.refl _
  | cons t ts ih =>
    rw [List.filterMap_cons]
    split
    · exact ih.cons _
    · rename_i q hq
      simp only [Option.map_eq_some_iff] at hq
      obtain ⟨s, -, rfl⟩ := hq
      exact ih.cons_cons _

end

/-! ## C34: nothing is dropped unless asked -/

/-- Without dropObjects the walk only creates, or does what the comparison of two tables says. -/
theorem mem_walk_keep {e : DiffEnv} (he : e.dropObjects = false) {alter : Table → Table → List Ev}
    {ev : Ev} (h : ev ∈ walk e alter) :
    ev.createSchema?.isSome ∨ ev.createTable?.isSome ∨ ev.addFastFkey?.isSome ∨
      ∃ s t, ev ∈ alter s t := by
  rw [walk, he] at h
  simp only [Bool.false_eq_true, if_false, List.nil_append] at h
  obtain ⟨d, -, h⟩ := List.mem_flatMap.1 h
  rw [destSchemaEvents] at h
  have hcreate : ∀ t, ev ∈ createTableEvents e t →
      ev.createTable?.isSome ∨ ev.addFastFkey?.isSome := by
    intro t ht
    rw [createTableEvents] at ht
    rcases List.mem_cons.1 ht with rfl | ht
    · exact .inl rfl
    · obtain ⟨c, -, rfl⟩ := List.mem_map.1 ht; exact .inr rfl
  split at h
  · cases h
  · split at h
    · rcases List.mem_append.1 h with h | h
      · split at h
        · rw [List.mem_singleton] at h; subst h; exact .inl rfl
        · cases h
      · obtain ⟨t, -, h⟩ := List.mem_flatMap.1 h
        split at h
        · cases h
        · rcases hcreate t h with h | h
          · exact .inr (.inl h)
          · exact .inr (.inr (.inl h))
    · rw [he] at h
      simp only [Bool.false_eq_true, if_false, List.nil_append] at h
      obtain ⟨t, -, h⟩ := List.mem_flatMap.1 h
      rw [destTableEvents] at h
      split at h
      · cases h
      · split at h
        · rcases hcreate t h with h | h
          · exact .inr (.inl h)
          · exact .inr (.inr (.inl h))
        · exact .inr (.inr (.inr ⟨_, _, h⟩))

/-- Without dropObjects, for every pair of catalogs: no schema, no table and no column is dropped,
and no foreign key is dropped (except to be added again, `redoFkey`). -/
theorem nothing_dropped {d : Dialect} (hd : Server d) (src dest : Catalog) :
    ∀ ev ∈ diffEvents d src dest false,
      ev.dropSchema? = none ∧ ev.dropTable? = none ∧ ev.dropFkey? = none ∧
        ∀ a, ev.alter? = some a → a.dropColumns = [] := by
  intro ev hev
  rw [diffEvents_walk hd] at hev
  rcases mem_walk_keep rfl hev with h | h | h | ⟨s, t, h⟩
  · cases ev <;> simp_all [Ev.createSchema?, Ev.dropSchema?, Ev.dropTable?, Ev.dropFkey?, Ev.alter?]
  · cases ev <;> simp_all [Ev.createTable?, Ev.dropSchema?, Ev.dropTable?, Ev.dropFkey?, Ev.alter?]
  · cases ev <;> simp_all [Ev.addFastFkey?, Ev.dropSchema?, Ev.dropTable?, Ev.dropFkey?, Ev.alter?]
  · rcases hd with rfl | rfl | rfl <;>
    · simp only [alterOf, mysqlAlter, pgAlter, mssqlAlter, alterEvents, whenDrop, diffEnv,
        Bool.false_eq_true, if_false, List.map_nil, List.nil_append] at h
      simp only [List.mem_append, List.mem_map] at h
      cases ev <;> simp_all [Ev.dropSchema?, Ev.dropTable?, Ev.dropFkey?, Ev.alter?]
      all_goals grind [mysqlAlterTable, pgAlterTable, mssqlAlterTable, whenDrop]

theorem mem_alters {d : Dialect} (hd : Server d) {src dest : Catalog} (hsrc : Ok src)
    (hdest : Ok dest) {drop : Bool} {a : AlterTable}
    (ha : a ∈ (diffEvents d src dest drop).filterMap Ev.alter?) :
    ∃ p ∈ commonTables src dest, a = alterTableOf d (diffEnv src dest drop) p.1 p.2 := by
  rw [alters_eq hd hsrc hdest] at ha
  obtain ⟨p, hp, ha⟩ := List.mem_flatMap.1 ha
  dsimp only at ha
  split at ha
  · rw [List.mem_singleton] at ha; exact ⟨p, hp, ha⟩
  · cases ha

/-- MySQL, without dropObjects: no index is dropped, and a constraint is dropped only if a primary
key of the same name is added. -/
theorem mysql_only_replaced {src dest : Catalog} (hsrc : Ok src) (hdest : Ok dest) :
    ∀ a ∈ (diffEvents .mysql src dest false).filterMap Ev.alter?,
      a.dropIndexes = [] ∧
      ∀ c ∈ a.dropConstraints, ∃ c' ∈ a.addConstraints,
        c'.constraintName = c.constraintName ∧ c'.constraintType = PRIMARY_KEY := by
  intro a ha
  obtain ⟨p, hp, rfl⟩ := mem_alters (by simp [Server]) hsrc hdest ha
  refine ⟨rfl, fun c hc => ?_⟩
  simp only [alterTableOf, mysqlAlterTable, whenDrop, diffEnv, Bool.false_eq_true, if_false,
    List.nil_append, List.mem_map, List.mem_filter] at hc
  obtain ⟨q, ⟨hq, hch⟩, rfl⟩ := hc
  simp only [commonConstraints, List.mem_filterMap] at hq
  obtain ⟨c', hc', hq⟩ := hq
  split at hq
  · cases hq
  · rename_i hi
    simp only [Option.map_eq_some_iff] at hq
    obtain ⟨s, hs, rfl⟩ := hq
    obtain ⟨sc, hsc, ht⟩ := inCatalog_live (mem_commonTables hp).1
    have := (getConstraint_iff hsrc hsc ht _ _).1 hs
    refine ⟨c', ?_, this.2.1.symm, ?_⟩
    · simp only [alterTableOf, mysqlAlterTable, mysqlAddConstraints, List.mem_filter]
      refine ⟨hc', ?_⟩
      have hs' : ((diffEnv src dest false).srcCache.getConstraint p.1 c'.constraintName).toOption =
        some s := hs
      rw [hs']
      simp [hi, hch]
    · simp [pkeyChanged] at hch; exact hch.1

/-- Postgres, without dropObjects: no index is dropped, and a constraint is dropped only if it is
the primary key and another primary key is added. -/
theorem pg_only_replaced {src dest : Catalog} (hsrc : Ok src) (hdest : Ok dest) :
    ∀ a ∈ (diffEvents .postgres src dest false).filterMap Ev.alter?,
      a.dropIndexes = [] ∧
      ∀ c ∈ a.dropConstraints, c.constraintType = PRIMARY_KEY ∧
        ∃ c' ∈ a.addConstraints, c'.constraintType = PRIMARY_KEY := by
  intro a ha
  obtain ⟨p, hp, rfl⟩ := mem_alters (by simp [Server]) hsrc hdest ha
  refine ⟨rfl, fun c hc => ?_⟩
  simp only [alterTableOf, pgAlterTable, whenDrop, diffEnv, Bool.false_eq_true, if_false,
    List.nil_append, pgReplacedPkey, Bool.not_false, Bool.and_true] at hc
  split at hc
  · rename_i h
    obtain ⟨sc, hsc, ht⟩ := inCatalog_live (mem_commonTables hp).1
    simp only [Option.mem_toList] at hc
    refine ⟨(getPrimaryKey_mem hsrc hsc ht hc).2.1, ?_⟩
    rw [List.any_eq_true] at h
    obtain ⟨c', hc', h⟩ := h
    simp at h
    exact ⟨c', List.mem_filter.2 ⟨hc', by simp [isKey, h]⟩, h⟩
  · cases hc

/-- Constraints of the same name in both catalogs have the same type. -/
def _root_.CatalogSpec.SameTypes (src dest : Catalog) : Prop :=
  ∀ p ∈ commonTables src dest, ∀ q ∈ CatalogSpec.commonConstraints p.1 p.2,
    q.1.constraintType = q.2.constraintType

/-- SQL Server, without dropObjects: an index that is dropped is created again, and a constraint
that is dropped is added again or is the primary key and another primary key is added.

`SameTypes` is needed: see `mssql_pkey_lost_refuted`.  So is that the table has one primary
key. -/
theorem mssql_only_replaced_partial {src dest : Catalog} (hsrc : Ok src) (hdest : Ok dest)
    (hst : SameTypes src dest)
    (hone : ∀ t ∈ liveTables src, ∀ x ∈ t.constraints, ∀ y ∈ t.constraints,
      x.constraintType = PRIMARY_KEY → y.constraintType = PRIMARY_KEY → x = y) :
    ∀ a ∈ (diffEvents .sqlserver src dest false).filterMap Ev.alter?,
      (∀ x ∈ a.dropIndexes, x ∈ a.createIndexes) ∧
      ∀ c ∈ a.dropConstraints, c ∈ a.addConstraints ∨
        (c.constraintType = PRIMARY_KEY ∧
          ∃ c' ∈ a.addConstraints, c'.constraintType = PRIMARY_KEY) := by
  intro a ha
  obtain ⟨p, hp, rfl⟩ := mem_alters (by simp [Server]) hsrc hdest ha
  obtain ⟨h1, h2, -, -⟩ := mem_commonTables hp
  obtain ⟨sc, hsc, ht⟩ := inCatalog_live h1
  obtain ⟨dc, hdc, hdt⟩ := inCatalog_live h2
  constructor
  · intro x hx
    simp only [alterTableOf, mssqlAlterTable, whenDrop, diffEnv, Bool.false_eq_true, if_false,
      List.nil_append] at hx ⊢
    exact List.mem_append_right _ hx
  · intro c hc
    simp only [alterTableOf, mssqlAlterTable, whenDrop, diffEnv, Bool.false_eq_true, if_false,
      List.nil_append] at hc ⊢
    rcases List.mem_append.1 hc with hc | hc
    · right
      simp only [mssqlReplacedPkeyPos, Bool.not_false, Bool.true_and] at hc
      split at hc
      · rename_i s t hs hd
        split at hc
        · rename_i hne
          have hs' := getPrimaryKey_mem hsrc hsc ht hs
          have hd' := getPrimaryKey_mem hdest hdc hdt hd
          have hcs : c = s := by
            simp only [CatalogCache.getPrimaryKey] at hs
            cases hk : (newCatalogCache src).pkeys.get (p.1.tableSchema, p.1.tableName) with
            | none => rw [hk] at hs; cases hs
            | some i =>
              rw [hk] at hs hc
              simp only [getAt] at hs
              simp only [Option.bind_some, Option.mem_toList] at hc
              rw [hc] at hs
              dsimp only at hs
              split at hs <;> simp [Got.toOption] at hs
              exact hs
          subst hcs
          refine ⟨hs'.2.1, t, List.mem_append_left _ (List.mem_filter.2 ⟨?_, ?_⟩), hd'.2.1⟩
          · rw [missingConstraints_eq hsrc ⟨sc, hsc, ht⟩, List.mem_filter]
            refine ⟨List.mem_filter.2 ⟨hd'.1, by simp [hd'.2.2]⟩, ?_⟩
            cases hh : hasConstraint p.1 t.constraintName with
            | false => rfl
            | true =>
              exfalso
              rw [hasConstraint, ← isSome_eq_any rfl, Option.isSome_iff_exists] at hh
              obtain ⟨y, hy⟩ := hh
              have hty := hst p hp (y, t) (by
                rw [CatalogSpec.commonConstraints, List.mem_filterMap]
                exact ⟨t, List.mem_filter.2 ⟨hd'.1, by simp [hd'.2.2]⟩, by simp [hy]⟩)
              have hym := List.mem_filter.1 (List.mem_of_find?_eq_some hy)
              have hyn := List.find?_some hy
              simp at hyn
              have := hone p.1 h1 c hs'.1 y hym.1 hs'.2.1 (hty.trans hd'.2.1)
              subst this
              simp at hne
              exact hne hyn
          · simp [isKey, hd'.2.1]
        · cases hc
      · cases hc
    · left; exact List.mem_append_right _ hc

/-! ## C33: equal catalogs -/

theorem columnsAreDifferent_self (d : Dialect) (coll : Str) (c : Column) :
    columnsAreDifferent d coll c c = false := by
  delta columnsAreDifferent
  cases d <;> cases c.isNotNull <;> simp

theorem liveTables_ok {c : Catalog} (hc : Ok c) {t : Table} (ht : t ∈ liveTables c) :
    TableOk t := by
  obtain ⟨s, hs, -, ht, -⟩ := mem_liveTables.1 ht
  exact (hc.ok s hs).ok t ht

theorem find?_self {α K : Type} [BEq K] [LawfulBEq K] {k : α → K} {xs : List α}
    (h : (xs.map k).Nodup) {x : α} (hx : x ∈ xs) :
    xs.find? (fun y => k y == k x) = some x := by
  symm
  refine find?_eq_of_unique fun y => ?_
  constructor
  · rintro h; cases h; exact ⟨hx, by simp⟩
  · rintro ⟨hy, e⟩
    simp at e
    rw [nodup_map_inj h hy hx e]

theorem commonColumns_self {t : Table} (ht : TableOk t) :
    CatalogSpec.commonColumns t t = (liveColumns t).map fun x => (x, x) := by
  rw [CatalogSpec.commonColumns, ← List.filterMap_eq_map]
  refine filterMap_congr' fun x hx => ?_
  rw [find?_self (k := fun x : Column => x.columnName) _ hx]; rfl
  exact ht.columns.sublist (List.filter_sublist.map _)

theorem commonConstraints_self {t : Table} (ht : TableOk t) :
    CatalogSpec.commonConstraints t t = (liveConstraints t).map fun x => (x, x) := by
  rw [CatalogSpec.commonConstraints, ← List.filterMap_eq_map]
  refine filterMap_congr' fun x hx => ?_
  rw [find?_self (k := fun x : Constraint => x.constraintName) _ hx]; rfl
  exact ht.constraints.sublist (List.filter_sublist.map _)

theorem commonTables_self {c : Catalog} (hc : Ok c) :
    commonTables c c = (liveTables c).map fun x => (x, x) := by
  rw [commonTables, ← List.filterMap_eq_map]
  refine filterMap_congr' fun x hx => ?_
  have := find?_self (liveTables_nodup hc) hx
  rw [show (liveTables c).find? (fun s => s.tableSchema == x.tableSchema &&
    s.tableName == x.tableName) = some x from this]; rfl

section
variable {c : Catalog} (hc : Ok c) {t : Table} (ht : t ∈ liveTables c)
include hc ht

theorem surplusColumns_self : surplusColumns (newCatalogCache c) t t = [] := by
  rw [surplusColumns_eq hc (inCatalog_live ht), List.filter_eq_nil_iff]
  intro x hx; simp [hasColumn]; exact ⟨x, hx, rfl⟩

theorem surplusIndexes_self : surplusIndexes (newCatalogCache c) t t = [] := by
  rw [surplusIndexes_eq hc (inCatalog_live ht), List.filter_eq_nil_iff]
  intro x hx; simp [hasIndex]; exact ⟨x, hx, rfl⟩

theorem surplusConstraints_self : surplusConstraints (newCatalogCache c) t t = [] := by
  rw [surplusConstraints_eq hc (inCatalog_live ht), List.filter_eq_nil_iff]
  intro x hx; simp [hasConstraint]; exact ⟨x, hx, rfl⟩

theorem changedColumns_self (d : Dialect) (coll : Str) :
    changedColumns d coll (newCatalogCache c) t t = [] := by
  rw [changedColumns, commonColumns_eq hc (inCatalog_live ht),
    commonColumns_self (liveTables_ok hc ht), List.filter_eq_nil_iff]
  intro p hp
  obtain ⟨x, -, rfl⟩ := List.mem_map.1 hp
  rw [columnsAreDifferent_self]; simp

theorem alterOf_self {d : Dialect} (hd : Server d) (drop : Bool) :
    alterOf d (diffEnv c c drop) t t = [] := by
  have h1 := surplusColumns_self hc ht
  have h2 := surplusIndexes_self hc ht
  have h3 := surplusConstraints_self hc ht
  have h4 : missingColumns (newCatalogCache c) t t = [] := h1
  have h5 : missingIndexes (newCatalogCache c) t t = [] := h2
  have h6 : missingConstraints (newCatalogCache c) t t = [] := h3
  have h7 := fun d => changedColumns_self hc ht d c.defaultCollation
  have h8 := commonConstraints_eq hc (inCatalog_live ht) t
  rw [commonConstraints_self (liveTables_ok hc ht)] at h8
  have h9 := commonColumns_eq hc (inCatalog_live ht) t
  rw [commonColumns_self (liveTables_ok hc ht)] at h9
  have hw : ∀ xs : List Column, whenDrop (diffEnv c c drop) xs = if drop then xs else [] :=
    fun _ => rfl
  rcases hd with rfl | rfl | rfl
  · have hp : ((liveConstraints t).map fun x => (x, x)).filter pkeyChanged = [] := by
      rw [List.filter_eq_nil_iff]
      intro p hp
      obtain ⟨x, -, rfl⟩ := List.mem_map.1 hp
      simp [pkeyChanged]
    have ha : mysqlAddConstraints (diffEnv c c drop) t t = [] := by
      rw [mysqlAddConstraints, List.filter_eq_nil_iff]
      intro x hx h
      obtain ⟨s, hs, hts⟩ := inCatalog_live ht
      cases hi : x.ignore with
      | true => simp [hi] at h
      | false =>
        have : ((diffEnv c c drop).srcCache.getConstraint t x.constraintName).toOption = some x :=
          (getConstraint_iff hc hs hts _ _).2 ⟨hx, rfl, hi⟩
        rw [this] at h
        simp [pkeyChanged] at h
    simp only [alterOf, mysqlAlter, alterEvents, mysqlAlterTable, AlterTable.worthKeeping, ha]
    simp [diffEnv, h2, h3, h4, h5, h6, h7, h8, hp, whenDrop]
  · have hp : (((liveConstraints t).map fun x => (x, x)).filter fun p =>
        p.1.isDeferrable != p.2.isDeferrable ||
        p.1.isInitiallyDeferred != p.2.isInitiallyDeferred) = [] := by
      rw [List.filter_eq_nil_iff]
      intro p hp
      obtain ⟨x, -, rfl⟩ := List.mem_map.1 hp
      simp
    simp only [alterOf, pgAlter, alterEvents, pgAlterTable, AlterTable.worthKeeping]
    simp [diffEnv, h2, h3, h4, h5, h6, h7, h8, hp, whenDrop, pgReplacedPkey]
  · have hi : mssqlIdentityWarnings (diffEnv c c drop) t t = [] := by
      rw [mssqlIdentityWarnings, show (diffEnv c c drop).srcCache = newCatalogCache c from rfl, h9,
        List.filter_eq_nil_iff]
      intro p hp
      obtain ⟨x, -, rfl⟩ := List.mem_map.1 hp
      simp
    have hr : mssqlReplacedPkeyPos (diffEnv c c drop) t t = none := by
      simp only [mssqlReplacedPkeyPos, diffEnv]
      split
      · rename_i h1 h2
        rw [h1] at h2
        cases h2
        simp
      · rfl
    have hm : mssqlAlterColumns (diffEnv c c drop) t t = [] := h7 .sqlserver
    simp only [alterOf, mssqlAlter, alterEvents, mssqlAlterTable, AlterTable.worthKeeping, hi, hr,
      hm]
    simp [diffEnv, h2, h3, h4, h5, h6, whenDrop]

end

/-- The migration from a catalog to itself is empty: no field of it gets an element. -/
theorem diff_self {d : Dialect} (hd : Server d) {c : Catalog} (hc : Ok c) (drop : Bool) :
    diffEvents d c c drop = [] := by
  rw [diffEvents_walk hd, walk_eq hc hc]
  rw [List.append_eq_nil_iff]
  constructor
  · split
    · refine flatMap_eq_nil' fun s hs => ?_
      rw [dropSchemaEvents]
      split
      · rfl
      · rename_i hi
        have : ((diffEnv c c drop).destCache.getSchema (diffEnv c c drop).dest
            s.schemaName).toOption = some s :=
          (getSchema_iff hc _ _).2 ⟨hs, rfl, by simpa using hi⟩
        rw [this]; rfl
    · rfl
  · refine flatMap_eq_nil' fun s hs => ?_
    have hs' := List.mem_filter.1 hs
    have hsi : s.ignore = false := by simpa using hs'.2
    rw [List.append_eq_nil_iff]
    constructor
    · have : ((newCatalogCache c).getSchema c s.schemaName).toOption = some s :=
        (getSchema_iff hc _ _).2 ⟨hs'.1, rfl, hsi⟩
      rw [schemaStep, this]
      dsimp only
      split
      · refine flatMap_eq_nil' fun t ht => ?_
        rw [dropTableEvents]
        split
        · rfl
        · rename_i hi
          have : ((diffEnv c c drop).destCache.getTable s t.tableName).toOption = some t :=
            (getTable_iff hc hs'.1 _ _).2 ⟨ht, rfl, by simpa using hi⟩
          rw [this]; rfl
      · rfl
    · refine flatMap_eq_nil' fun t ht => ?_
      have ht' : t ∈ liveTables c := List.mem_flatMap.2 ⟨s, hs, ht⟩
      have := find?_self (liveTables_nodup hc) ht'
      rw [tableStep, findTable_key, show (liveTables c).find? (fun x =>
        (x.tableSchema, x.tableName) == (t.tableSchema, t.tableName)) = some t from this]
      exact alterOf_self hc ht' hd drop

/-! ## The theorems on the two sample catalogs -/

section
open Sample

example {d : Dialect} (hd : d = .mysql ∨ d = .postgres) (drop : Bool) :
    (((diffEvents d src dest drop).filterMap Ev.alter?).flatMap fun a =>
      a.createIndexes.map fun x => (a.destTable, x)).map (fun p => (p.1.tableName, p.2.indexName)) =
    [(b!"actor", b!"actor_born_idx")] := by
  rw [createIndexes_exact src_ok dest_ok drop hd]; decide +kernel

example {d : Dialect} (hd : d = .mysql ∨ d = .postgres) :
    (((diffEvents d src dest true).filterMap Ev.alter?).flatMap fun a =>
      a.dropIndexes.map fun x => (a.destTable, x)).map (fun p => (p.1.tableName, p.2.indexName)) =
    [(b!"actor", b!"actor_name_idx")] := by
  rw [dropIndexes_exact src_ok dest_ok true hd]; decide +kernel

example (drop : Bool) :
    (((diffEvents .postgres src dest drop).filterMap Ev.alter?).flatMap fun a =>
      a.addConstraints.map fun x => (a.destTable, x)).map
        (fun p => (p.1.tableName, p.2.constraintName)) = [(b!"actor", b!"actor_id_pkey")] := by
  rw [pg_addConstraints_exact src_ok dest_ok drop]; decide +kernel

example :
    (((diffEvents .postgres src dest true).filterMap Ev.alter?).flatMap fun a =>
      a.dropConstraints.map fun x => (a.destTable, x)).map
        (fun p => (p.1.tableName, p.2.constraintName)) = [(b!"actor", b!"actor_pkey")] := by
  rw [pg_dropConstraints_exact src_ok dest_ok]; decide +kernel

example :
    (((diffEvents .mysql src dest true).filterMap Ev.alter?).flatMap fun a =>
      a.dropConstraints.map fun x => (a.destTable, x)).map
        (fun p => (p.1.tableName, p.2.constraintName)) =
      [(b!"actor", b!"actor_pkey"), (b!"film", b!"film_pkey")] := by
  rw [mysql_dropConstraints_exact src_ok dest_ok]; decide +kernel

example :
    (((diffEvents .mysql src dest false).filterMap Ev.alter?).flatMap fun a =>
      a.addConstraints.map fun x => (a.destTable, x)).map
        (fun p => (p.1.tableName, p.2.constraintName)) =
      [(b!"actor", b!"actor_id_pkey"), (b!"film", b!"film_pkey")] := by
  rw [mysql_addConstraints_exact src_ok dest_ok]; decide +kernel

/-- the altered table `actor` loses its column `extra` -/
example : ∃ a ∈ (diffEvents .sqlserver src dest true).filterMap Ev.alter?,
    a.dropColumns.map (·.columnName) = [b!"extra"] := by decide +kernel

/-- a primary key is dropped and added without dropObjects -/
example : ∃ a ∈ (diffEvents .mysql src dest false).filterMap Ev.alter?,
    a.dropConstraints.map (·.constraintName) = [b!"film_pkey"] := by decide +kernel
example : ∃ a ∈ (diffEvents .postgres src dest false).filterMap Ev.alter?,
    a.dropConstraints.map (·.constraintName) = [b!"actor_pkey"] := by decide +kernel
example : ∃ a ∈ (diffEvents .sqlserver src dest false).filterMap Ev.alter?,
    a.dropConstraints.map (·.constraintName) = [b!"actor_pkey"] ∧
    a.dropIndexes.map (·.indexName) = [b!"actor_name_idx"] := by decide +kernel

instance (src dest : Catalog) : Decidable (SameTypes src dest) :=
  inferInstanceAs (Decidable (∀ p ∈ commonTables src dest,
    ∀ q ∈ CatalogSpec.commonConstraints p.1 p.2, q.1.constraintType = q.2.constraintType))

/-- the hypotheses of `mssql_only_replaced_partial` -/
example : SameTypes src dest ∧ ∀ t ∈ liveTables src, ∀ x ∈ t.constraints, ∀ y ∈ t.constraints,
    x.constraintType = PRIMARY_KEY → y.constraintType = PRIMARY_KEY → x = y := by decide +kernel

example {d : Dialect} (hd : Server d) (drop : Bool) : diffEvents d src src drop = [] :=
  diff_self hd src_ok drop

end

/-! ## Refutations -/

/-- A table that differs only in a surplus column is not altered: with dropObjects, for all three
dialects, the column stays. -/
theorem surplus_column_kept_refuted {d : Dialect} (hd : Server d) :
    ∃ src dest : Catalog, Ok src ∧ Ok dest ∧
      (∃ p ∈ commonTables src dest, ∃ x ∈ liveColumns p.1, hasColumn p.2 x.columnName = false) ∧
      diffEvents d src dest true = [] := by
  refine ⟨
    { schemas := [{ tables := [
        { tableName := b!"t", columns := [Sample.col b!"t" b!"a" b!"INT",
          Sample.col b!"t" b!"b" b!"INT"] }] }] },
    { schemas := [{ tables := [
        { tableName := b!"t", columns := [Sample.col b!"t" b!"a" b!"INT"] }] }] },
    by decide +kernel, by decide +kernel, by decide +kernel, ?_⟩
  rcases hd with rfl | rfl | rfl <;> decide +kernel

/-- SQL Server, without dropObjects: the primary key is dropped and none is added, because the
name of the new primary key belongs to a unique constraint of the source. -/
theorem mssql_pkey_lost_refuted :
    ∃ src dest : Catalog, Ok src ∧ Ok dest ∧
      ∃ a ∈ (diffEvents .sqlserver src dest false).filterMap Ev.alter?,
        (∃ c ∈ a.dropConstraints, c.constraintType = PRIMARY_KEY) ∧
        ∀ c ∈ a.addConstraints, c.constraintType ≠ PRIMARY_KEY := by
  refine ⟨
    { schemas := [{ tables := [
        { tableName := b!"t", columns := [Sample.col b!"t" b!"a" b!"INT",
            Sample.col b!"t" b!"b" b!"INT"]
          constraints := [Sample.pk b!"t" b!"k1" [b!"a"],
            { Sample.pk b!"t" b!"k2" [b!"b"] with constraintType := UNIQUE }] }] }] },
    { schemas := [{ tables := [
        { tableName := b!"t", columns := [Sample.col b!"t" b!"a" b!"INT",
            Sample.col b!"t" b!"b" b!"INT"]
          constraints := [Sample.pk b!"t" b!"k2" [b!"b"]] }] }] },
    by decide +kernel, by decide +kernel, by decide +kernel⟩

/-- A CHECK constraint that is missing in the source is not added, for MySQL, Postgres and SQL
Server. -/
theorem check_not_added_refuted {d : Dialect} (hd : Server d) :
    ∃ src dest : Catalog, Ok src ∧ Ok dest ∧
      (∃ p ∈ commonTables src dest, ∃ c ∈ liveConstraints p.2,
        hasConstraint p.1 c.constraintName = false) ∧
      diffEvents d src dest true = [] := by
  refine ⟨
    { schemas := [{ tables := [
        { tableName := b!"t", columns := [Sample.col b!"t" b!"a" b!"INT"] }] }] },
    { schemas := [{ tables := [
        { tableName := b!"t", columns := [Sample.col b!"t" b!"a" b!"INT"]
          constraints := [
            { tableName := b!"t", constraintName := b!"t_a_check", constraintType := CHECK
              checkExpr := b!"a > 0" }] }] }] },
    by decide +kernel, by decide +kernel, by decide +kernel, ?_⟩
  rcases hd with rfl | rfl | rfl <;> decide +kernel

end Sqddl
