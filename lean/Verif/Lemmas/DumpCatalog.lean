import Verif.Lemmas.DumpOrder
import Verif.Lemmas.Converge

/-!
# What a dump creates is what its catalog describes
-/

namespace DumpParts
open SqlSpec Sqddl DdlText EngineSpec CatalogSpec
open DumpSpec (Dumpable TableDump)

/-- Lists that are put together from lists of elements with different keys. -/
theorem pairwise_keyed {α β K : Type} {R : β → β → Prop} {kx : α → K} {f : α → List β} {xs : List α}
    (hx : (xs.map kx).Nodup) (h1 : ∀ x ∈ xs, (f x).Pairwise R)
    (h2 : ∀ x ∈ xs, ∀ y ∈ xs, kx x ≠ kx y → ∀ a ∈ f x, ∀ b ∈ f y, R a b) : (xs.flatMap f).Pairwise R := by
  rw [List.flatMap_def, List.pairwise_flatten]
  refine ⟨fun l hl => ?_, ?_⟩
  · obtain ⟨x, hx, rfl⟩ := List.mem_map.1 hl
    exact h1 x hx
  · rw [List.pairwise_map]
    refine List.Pairwise.imp_of_mem ?_ (List.pairwise_map.1 hx)
    intro x y hx hy hne a ha b hb
    exact h2 x hx y hy hne a ha b hb

theorem flatMap_split {α β : Type} {f : α → List β} {xs : List α} {a b : List β} {m : β}
    (h : xs.flatMap f = a ++ m :: b) : ∃ x1 x x2 a' b', xs = x1 ++ x :: x2 ∧ f x = a' ++ m :: b' ∧
      b = b' ++ x2.flatMap f := by
  induction xs generalizing a with
  | nil => simp at h
  | cons x xs ih =>
    rw [List.flatMap_cons, List.append_eq_append_iff] at h
    rcases h with ⟨c, h1, h2⟩ | ⟨c, h1, h2⟩
    · obtain ⟨x1, y, x2, a', b', e1, e2, e3⟩ := ih h2
      exact ⟨x :: x1, y, x2, a', b', by rw [e1]; rfl, e2, e3⟩
    · cases c with
      | nil =>
        obtain ⟨x1, y, x2, a', b', e1, e2, e3⟩ := ih (a := []) h2.symm
        exact ⟨x :: x1, y, x2, a', b', by rw [e1]; rfl, e2, e3⟩
      | cons d c =>
        simp at h2
        obtain ⟨rfl, rfl⟩ := h2
        exact ⟨[], x, xs, a, c, rfl, h1, rfl⟩

theorem append_split {α : Type} {p q a b : List α} {m : α} (h : p ++ q = a ++ m :: b) (hm : m ∉ p) :
    ∀ x ∈ m :: b, x ∈ q := by
  rw [List.append_eq_append_iff] at h
  rcases h with ⟨c, h1, h2⟩ | ⟨c, h1, h2⟩
  · intro x hx; rw [h2]; simp only [List.mem_append]; exact .inr hx
  · cases c with
    | nil => intro x hx; rw [List.nil_append] at h2; rw [← h2]; exact hx
    | cons d c =>
      simp at h2
      obtain ⟨rfl, rfl⟩ := h2
      rw [h1] at hm; simp at hm

theorem foreignKey_eq (x : Constraint) :
    foreignKey x = decide (x.constraintType = b!"FOREIGN KEY") := by
  rw [Bool.eq_iff_iff]; simp [foreignKey]; rfl

theorem kind_foreign {d : Dialect} {cur : Str} {x : Constraint} :
    (∃ cs ref, kindOf d cur x = .foreign cs ref) ↔ foreignKey x = true := by
  have e : foreignKey x = decide (x.constraintType = b!"FOREIGN KEY") := foreignKey_eq x
  rw [e, decide_eq_true_iff]
  unfold kindOf
  constructor
  · rintro ⟨cs, ref, h⟩
    by_cases h1 : x.constraintType = b!"PRIMARY KEY"
    · rw [if_pos h1] at h; cases h
    rw [if_neg h1] at h
    by_cases h2 : x.constraintType = b!"UNIQUE"
    · rw [if_pos h2] at h; cases h
    rw [if_neg h2] at h
    by_cases h3 : x.constraintType = b!"FOREIGN KEY"
    · exact h3
    rw [if_neg h3] at h
    by_cases h4 : x.constraintType = b!"CHECK"
    · rw [if_pos h4] at h; cases h
    rw [if_neg h4] at h; cases h
  · intro h
    rw [if_neg (by rw [h]; decide), if_neg (by rw [h]; decide), if_pos h]
    exact ⟨_, _, rfl⟩

theorem kind_primary {d : Dialect} {cur : Str} {x : Constraint} :
    (∃ cs, kindOf d cur x = .primary cs) ↔ DdlText.primaryKey x = true := by
  have e : DdlText.primaryKey x = decide (x.constraintType = b!"PRIMARY KEY") := rfl
  rw [e, decide_eq_true_iff]
  unfold kindOf
  constructor
  · rintro ⟨cs, h⟩
    by_cases h1 : x.constraintType = b!"PRIMARY KEY"
    · exact h1
    rw [if_neg h1] at h
    by_cases h2 : x.constraintType = b!"UNIQUE"
    · rw [if_pos h2] at h; cases h
    rw [if_neg h2] at h
    by_cases h3 : x.constraintType = b!"FOREIGN KEY"
    · rw [if_pos h3] at h; cases h
    rw [if_neg h3] at h
    by_cases h4 : x.constraintType = b!"CHECK"
    · rw [if_pos h4] at h; cases h
    rw [if_neg h4] at h; cases h
  · intro h
    rw [if_pos h]
    exact ⟨_, rfl⟩

/-- The primary key is part of CREATE TABLE. -/
def inline (d : Dialect) : Bool := decide (d = .mysql ∨ d = .sqlserver)

theorem mem_late {d : Dialect} {t : Table} {x : Constraint} : x ∈ Dump.lateConstraints d t ↔
    x ∈ t.constraints ∧ foreignKey x = false ∧ (inline d && DdlText.primaryKey x) = false := by
  have e : foreignKey x = decide (x.constraintType = b!"FOREIGN KEY") := foreignKey_eq x
  have e2 : DdlText.primaryKey x = decide (x.constraintType = b!"PRIMARY KEY") := rfl
  unfold Dump.lateConstraints
  rw [List.mem_filter, e, e2]
  unfold inline
  refine and_congr_right fun _ => ?_
  show (!(decide (x.constraintType = b!"PRIMARY KEY" ∧ (d = .mysql ∨ d = .sqlserver))) &&
    decide (x.constraintType ≠ b!"FOREIGN KEY")) = true ↔ _
  by_cases h1 : x.constraintType = b!"PRIMARY KEY" <;> by_cases h2 : x.constraintType = b!"FOREIGN KEY" <;>
    by_cases h3 : d = .mysql ∨ d = .sqlserver <;> simp [h1, h2, h3]

section
variable {d : Dialect} {sn : Str → Prop} {c : Catalog} (h : Dumpable d (keywords d) sn c)

include h in
theorem tables_nodup : ((DumpSpec.tables c).map fun t => (t.tableSchema, t.tableName)).Nodup := by
  have : liveTables c = DumpSpec.tables c := by
    unfold liveTables liveSchemas DumpSpec.tables
    have e : (c.schemas.filter fun s => !s.ignore) = c.schemas := by
      rw [List.filter_eq_self]
      intro s hs
      rw [(h.schemas s hs).1]; rfl
    rw [e]
    have : ∀ s ∈ c.schemas, (s.tables.filter fun t => !t.ignore) = s.tables := by
      intro s hs
      rw [List.filter_eq_self]
      intro t ht
      rw [(h.tables s hs t ht).ignore.1]; rfl
    rw [List.flatMap_def, List.flatMap_def, List.map_congr_left this]
  rw [← this]
  exact liveTables_nodup h.ok

include h in
theorem table_name {s : Schema} (hs : s ∈ c.schemas) {t : Table} (ht : t ∈ s.tables) :
    t.tableSchema = s.schemaName ∧ key (tname c.currentSchema t) = (t.tableSchema, t.tableName) := by
  have e := (h.ok.ok s hs).schemaName t ht
  have hne := (h.schemas s hs).2.1
  refine ⟨e, ?_⟩
  unfold tname fullName key
  rw [if_neg (by rw [e]; exact hne)]
  rfl

include h in
theorem mem_tables {s : Schema} (hs : s ∈ c.schemas) {t : Table} (ht : t ∈ s.tables) :
    (DumpSpec.dbOf d (keywords d) c).table (key (tname c.currentSchema t)) =
      some (DumpSpec.tblOf d (keywords d) c.currentSchema c.defaultCollation t) := by
  rw [(table_name h hs ht).2]
  have hm : t ∈ DumpSpec.tables c := List.mem_flatMap.2 ⟨s, hs, ht⟩
  show ((DumpSpec.tables c).find? fun u => (u.tableSchema, u.tableName) == (t.tableSchema, t.tableName)).map _
    = _
  have : (DumpSpec.tables c).find? (fun u => (u.tableSchema, u.tableName) == (t.tableSchema, t.tableName))
      = some t := by
    cases e : (DumpSpec.tables c).find? (fun u => (u.tableSchema, u.tableName) ==
        (t.tableSchema, t.tableName)) with
    | none =>
      rw [List.find?_eq_none] at e
      exact absurd (by simp) (e t hm)
    | some u =>
      have h1 := List.mem_of_find?_eq_some e
      have h2 := List.find?_some e
      rw [beq_iff_eq] at h2
      rw [nodup_map_inj (tables_nodup h) h1 hm h2]
  rw [this]; rfl

include h in
theorem table_inv {k : Key} {u : Tbl} (hu : (DumpSpec.dbOf d (keywords d) c).table k = some u) :
    ∃ s ∈ c.schemas, ∃ t ∈ s.tables, k = key (tname c.currentSchema t) ∧
      u = DumpSpec.tblOf d (keywords d) c.currentSchema c.defaultCollation t := by
  obtain ⟨t, h1, h2⟩ := Option.map_eq_some_iff.1 hu
  have h3 := List.mem_of_find?_eq_some h1
  have h4 := List.find?_some h1
  rw [beq_iff_eq] at h4
  obtain ⟨s, hs, ht⟩ := List.mem_flatMap.1 h3
  exact ⟨s, hs, t, ht, by rw [(table_name h hs ht).2, h4], h2.symm⟩

include h in
theorem table_eq {s s' : Schema} (hs : s ∈ c.schemas) (hs' : s' ∈ c.schemas) {t t' : Table}
    (ht : t ∈ s.tables) (ht' : t' ∈ s'.tables)
    (e : key (tname c.currentSchema t) = key (tname c.currentSchema t')) : t = t' := by
  rw [(table_name h hs ht).2, (table_name h hs' ht').2] at e
  exact nodup_map_inj (tables_nodup h) (List.mem_flatMap.2 ⟨s, hs, ht⟩) (List.mem_flatMap.2 ⟨s', hs', ht'⟩) e

include h in
theorem con_find {s : Schema} (hs : s ∈ c.schemas) {t : Table} (ht : t ∈ s.tables) {x : Constraint}
    (hx : x ∈ t.constraints) :
    (DumpSpec.tblOf d (keywords d) c.currentSchema c.defaultCollation t).con x.constraintName =
      some (conOf d c.currentSchema x) := by
  show (t.constraints.find? fun y => y.constraintName == x.constraintName).map _ = _
  rw [find_name (fun y : Constraint => y.constraintName) ((h.ok.ok s hs).ok t ht).constraints hx]
  rfl

/-- The make of a constraint. -/
def IsCon (d : Dialect) (cur : Str) (s : Schema) (m : Make) (t : Table) (x : Constraint) : Prop :=
  t ∈ s.tables ∧ x ∈ t.constraints ∧ m = conMake d cur t x

theorem mem_lateMakes {cur : Str} {s : Schema} {m : Make} (hm : m ∈ lateMakes d cur s) :
    ∃ t x, IsCon d cur s m t x ∧ foreignKey x = false ∧ (inline d && DdlText.primaryKey x) = false := by
  obtain ⟨t, ht, hm⟩ := List.mem_flatMap.1 hm
  obtain ⟨x, hx, rfl⟩ := List.mem_map.1 hm
  obtain ⟨h1, h2, h3⟩ := mem_late.1 hx
  exact ⟨t, x, ⟨ht, h1, rfl⟩, h2, h3⟩

theorem mem_fkeyMakes {cur : Str} {s : Schema} {m : Make} (hm : m ∈ fkeyMakes d cur s) :
    ∃ t x, IsCon d cur s m t x ∧ foreignKey x = true := by
  obtain ⟨t, ht, hm⟩ := List.mem_flatMap.1 hm
  obtain ⟨x, hx, rfl⟩ := List.mem_map.1 hm
  obtain ⟨h1, h2⟩ := List.mem_filter.1 hx
  exact ⟨t, x, ⟨ht, h1, rfl⟩, h2⟩

theorem mem_conMakes {m : Make} (hm : m ∈ conMakes d c) : ∃ s ∈ c.schemas, ∃ t x,
    IsCon d c.currentSchema s m t x ∧ (inline d && DdlText.primaryKey x) = false := by
  obtain ⟨s, hs, hm⟩ := List.mem_flatMap.1 hm
  rcases List.mem_append.1 hm with hm | hm
  · obtain ⟨t, x, h1, _, h2⟩ := mem_lateMakes hm
    exact ⟨s, hs, t, x, h1, h2⟩
  · obtain ⟨t, x, h1, h2⟩ := mem_fkeyMakes hm
    refine ⟨s, hs, t, x, h1, ?_⟩
    have e : foreignKey x = decide (x.constraintType = b!"FOREIGN KEY") := foreignKey_eq x
    have e2 : DdlText.primaryKey x = decide (x.constraintType = b!"PRIMARY KEY") := rfl
    rw [e, decide_eq_true_iff] at h2
    rw [e2, h2]
    simp

include h in
/-- The same constraint is the same constraint of the same table. -/
theorem con_eq {s s' : Schema} (hs : s ∈ c.schemas) (hs' : s' ∈ c.schemas) {m m' : Make} {t t' : Table}
    {x x' : Constraint} (h1 : IsCon d c.currentSchema s m t x) (h2 : IsCon d c.currentSchema s' m' t' x')
    (e : ident m = ident m') : t = t' ∧ x = x' := by
  obtain ⟨ht, hx, rfl⟩ := h1
  obtain ⟨ht', hx', rfl⟩ := h2
  have e : Id.con (key (tname c.currentSchema t)) x.constraintName =
    Id.con (key (tname c.currentSchema t')) x'.constraintName := e
  injection e with e1 e2
  have := table_eq h hs hs' ht ht' e1
  subst this
  exact ⟨rfl, nodup_map_inj ((h.ok.ok s hs).ok t ht).constraints hx hx' e2⟩

include h in
theorem block_nodup {s : Schema} (hs : s ∈ c.schemas) (f : Table → List Constraint)
    (hf : ∀ t, (f t).Sublist t.constraints) :
    (s.tables.flatMap fun t => (f t).map (conMake d c.currentSchema t)).Pairwise
      fun a b => ident a ≠ ident b := by
  refine pairwise_keyed (h.ok.ok s hs).tables (fun t ht => ?_) ?_
  · rw [List.pairwise_map]
    have := (((h.ok.ok s hs).ok t ht).constraints).sublist ((hf t).map _)
    rw [List.Nodup, List.pairwise_map] at this
    refine this.imp ?_
    intro a b hab e
    have e : Id.con _ a.constraintName = Id.con _ b.constraintName := e
    injection e with e1 e2
    exact hab e2
  · intro t ht t' ht' hne a ha b hb e
    obtain ⟨x, hx, rfl⟩ := List.mem_map.1 ha
    obtain ⟨y, hy, rfl⟩ := List.mem_map.1 hb
    exact hne (congrArg (·.tableName) (con_eq h hs hs ⟨ht, (hf t).subset hx, rfl⟩
      ⟨ht', (hf t').subset hy, rfl⟩ e).1)

include h in
theorem conMakes_nodup : (conMakes d c).Pairwise fun a b => ident a ≠ ident b := by
  refine pairwise_keyed h.ok.schemas (fun s hs => ?_) ?_
  · rw [List.pairwise_append]
    refine ⟨block_nodup h hs (Dump.lateConstraints d) fun _ => List.filter_sublist,
      block_nodup h hs fkeysOf fun _ => List.filter_sublist, ?_⟩
    intro a ha b hb e
    obtain ⟨t, x, h1, h2, _⟩ := mem_lateMakes ha
    obtain ⟨t', x', h3, h4⟩ := mem_fkeyMakes hb
    obtain ⟨_, rfl⟩ := con_eq h hs hs h1 h3 e
    rw [h2] at h4; cases h4
  · intro s hs s' hs' hne a ha b hb e
    have mem : ∀ {s : Schema} {a : Make}, a ∈ lateMakes d c.currentSchema s ++
        fkeyMakes d c.currentSchema s → ∃ t x, IsCon d c.currentSchema s a t x := by
      intro s a ha
      rcases List.mem_append.1 ha with hm | hm
      · obtain ⟨t, x, h1, _⟩ := mem_lateMakes hm; exact ⟨t, x, h1⟩
      · obtain ⟨t, x, h1, _⟩ := mem_fkeyMakes hm; exact ⟨t, x, h1⟩
    obtain ⟨t, x, h1⟩ := mem ha
    obtain ⟨t', x', h2⟩ := mem hb
    obtain ⟨rfl, _⟩ := con_eq h hs hs' h1 h2 e
    exact hne (by rw [← (table_name h hs h1.1).1, ← (table_name h hs' h2.1).1])

theorem mem_indexMakes {m : Make} (hm : m ∈ indexMakes d c) : ∃ s ∈ c.schemas, ∃ t ∈ s.tables,
    ∃ x ∈ t.indexes, ∃ y, DumpSpec.indexMeans d (keywords d) c.currentSchema x = some y ∧
      m = .idx (tname c.currentSchema t) y := by
  obtain ⟨s, hs, hm⟩ := List.mem_flatMap.1 hm
  obtain ⟨t, ht, hm⟩ := List.mem_flatMap.1 hm
  obtain ⟨x, hx, hm⟩ := List.mem_flatMap.1 hm
  unfold idxMakes at hm
  rw [Option.mem_toList] at hm
  obtain ⟨y, hy, rfl⟩ := Option.map_eq_some_iff.1 hm
  exact ⟨s, hs, t, ht, x, hx, y, hy, rfl⟩

include h in
theorem index_name {s : Schema} (hs : s ∈ c.schemas) {t : Table} (ht : t ∈ s.tables) {x : Index}
    (hx : x ∈ t.indexes) {y : Idx} (hy : DumpSpec.indexMeans d (keywords d) c.currentSchema x = some y) :
    y.name = x.indexName ∧ y.table = some (tname c.currentSchema t) := by
  obtain ⟨_, z, hz, h1, h2⟩ := (h.tables s hs t ht).indexes x hx
  rw [hy] at hz; cases hz
  exact ⟨h1, h2⟩

include h in
theorem indexMakes_nodup : (indexMakes d c).Pairwise fun a b => ident a ≠ ident b := by
  refine pairwise_keyed h.ok.schemas (fun s hs => ?_) ?_
  · refine pairwise_keyed (h.ok.ok s hs).tables (fun t ht => ?_) ?_
    · refine pairwise_keyed ((h.ok.ok s hs).ok t ht).indexes (fun x hx => ?_) ?_
      · unfold idxMakes
        cases DumpSpec.indexMeans d (keywords d) c.currentSchema x <;> simp
      · intro x hx x' hx' hne a ha b hb e
        unfold idxMakes at ha hb
        rw [Option.mem_toList] at ha hb
        obtain ⟨y, hy, rfl⟩ := Option.map_eq_some_iff.1 ha
        obtain ⟨z, hz, rfl⟩ := Option.map_eq_some_iff.1 hb
        have e : Id.idx _ y.name = Id.idx _ z.name := e
        injection e with e1 e2
        rw [(index_name h hs ht hx hy).1, (index_name h hs ht hx' hz).1] at e2
        exact hne e2
    · intro t ht t' ht' hne a ha b hb e
      obtain ⟨x, _, ha⟩ := List.mem_flatMap.1 ha
      obtain ⟨x', _, hb⟩ := List.mem_flatMap.1 hb
      unfold idxMakes at ha hb
      rw [Option.mem_toList] at ha hb
      obtain ⟨y, hy, rfl⟩ := Option.map_eq_some_iff.1 ha
      obtain ⟨z, hz, rfl⟩ := Option.map_eq_some_iff.1 hb
      have e : Id.idx (key (tname c.currentSchema t)) y.name =
        Id.idx (key (tname c.currentSchema t')) z.name := e
      injection e with e1 e2
      exact hne (congrArg (·.tableName) (table_eq h hs hs ht ht' e1))
  · intro s hs s' hs' hne a ha b hb e
    obtain ⟨t, ht, ha⟩ := List.mem_flatMap.1 ha
    obtain ⟨t', ht', hb⟩ := List.mem_flatMap.1 hb
    obtain ⟨x, _, ha⟩ := List.mem_flatMap.1 ha
    obtain ⟨x', _, hb⟩ := List.mem_flatMap.1 hb
    unfold idxMakes at ha hb
    rw [Option.mem_toList] at ha hb
    obtain ⟨y, hy, rfl⟩ := Option.map_eq_some_iff.1 ha
    obtain ⟨z, hz, rfl⟩ := Option.map_eq_some_iff.1 hb
    have e : Id.idx (key (tname c.currentSchema t)) y.name =
      Id.idx (key (tname c.currentSchema t')) z.name := e
    injection e with e1 e2
    have := table_eq h hs hs' ht ht' e1
    subst this
    exact hne (by rw [← (table_name h hs ht).1, ← (table_name h hs' ht').1])

theorem mem_tableMakes {m : Make} (hm : m ∈ tableMakes d c) : ∃ s ∈ c.schemas, ∃ t ∈ s.tables,
    m = tableMake d c.currentSchema c.defaultCollation t := by
  obtain ⟨s, hs, hm⟩ := List.mem_flatMap.1 hm
  obtain ⟨t, ht, rfl⟩ := List.mem_map.1 hm
  exact ⟨s, hs, t, ht, rfl⟩

include h in
theorem tableMakes_nodup : (tableMakes d c).Pairwise fun a b => ident a ≠ ident b := by
  have inj : ∀ {s s' : Schema}, s ∈ c.schemas → s' ∈ c.schemas → ∀ {t t' : Table}, t ∈ s.tables →
      t' ∈ s'.tables → ident (tableMake d c.currentSchema c.defaultCollation t) =
        ident (tableMake d c.currentSchema c.defaultCollation t') → t = t' := by
    intro s s' hs hs' t t' ht ht' e
    have e : Id.table (key (tname c.currentSchema t)) = Id.table (key (tname c.currentSchema t')) := e
    injection e with e
    exact table_eq h hs hs' ht ht' e
  refine pairwise_keyed h.ok.schemas (fun s hs => ?_) ?_
  · rw [List.pairwise_map]
    have := (h.ok.ok s hs).tables
    rw [List.Nodup, List.pairwise_map] at this
    refine this.imp_of_mem ?_
    intro a b ha hb hab e
    exact hab (congrArg (·.tableName) (inj hs hs ha hb e))
  · intro s hs s' hs' hne a ha b hb e
    obtain ⟨t, ht, rfl⟩ := List.mem_map.1 ha
    obtain ⟨t', ht', rfl⟩ := List.mem_map.1 hb
    have := inj hs hs' ht ht' e
    subst this
    exact hne (by rw [← (table_name h hs ht).1, ← (table_name h hs' ht').1])

include h in
theorem makes_nodup : ((schemaMakes c ++ (tableMakes d c ++ (indexMakes d c ++ conMakes d c))).map
    ident).Nodup := by
  rw [List.Nodup, List.pairwise_map, List.pairwise_append]
  refine ⟨?_, ?_, ?_⟩
  · rw [schemaMakes, List.pairwise_map]
    have := h.ok.schemas
    rw [List.Nodup, List.pairwise_map] at this
    refine this.imp ?_
    intro a b hab e
    have e : Id.schema a.schemaName = Id.schema b.schemaName := e
    injection e with e
    exact hab e
  · rw [List.pairwise_append]
    refine ⟨tableMakes_nodup h, ?_, ?_⟩
    · rw [List.pairwise_append]
      refine ⟨indexMakes_nodup h, conMakes_nodup h, ?_⟩
      intro a ha b hb e
      obtain ⟨s, _, t, _, x, _, y, _, rfl⟩ := mem_indexMakes ha
      obtain ⟨s', _, t', x', ⟨_, _, rfl⟩, _⟩ := mem_conMakes hb
      cases e
    · intro a ha b hb e
      obtain ⟨s, _, t, _, rfl⟩ := mem_tableMakes ha
      rcases List.mem_append.1 hb with hb | hb
      · obtain ⟨s, _, t, _, x, _, y, _, rfl⟩ := mem_indexMakes hb
        cases e
      · obtain ⟨s', _, t', x', ⟨_, _, rfl⟩, _⟩ := mem_conMakes hb
        cases e
  · intro a ha b hb e
    obtain ⟨s, _, rfl⟩ := List.mem_map.1 ha
    rcases List.mem_append.1 hb with hb | hb
    · obtain ⟨s, _, t, _, rfl⟩ := mem_tableMakes hb
      cases e
    · rcases List.mem_append.1 hb with hb | hb
      · obtain ⟨s, _, t, _, x, _, y, _, rfl⟩ := mem_indexMakes hb
        cases e
      · obtain ⟨s', _, t', x', ⟨_, _, rfl⟩, _⟩ := mem_conMakes hb
        cases e

/-- A constraint is part of CREATE TABLE, or created later. -/
theorem mem_conMakes_of {s : Schema} (hs : s ∈ c.schemas) {t : Table} (ht : t ∈ s.tables) {x : Constraint}
    (hx : x ∈ t.constraints) (hi : (inline d && DdlText.primaryKey x) = false) :
    conMake d c.currentSchema t x ∈ conMakes d c := by
  refine List.mem_flatMap.2 ⟨s, hs, ?_⟩
  by_cases hf : foreignKey x = true
  · exact List.mem_append.2 (.inr (List.mem_flatMap.2 ⟨t, ht, List.mem_map.2 ⟨x,
      List.mem_filter.2 ⟨hx, hf⟩, rfl⟩⟩))
  · exact List.mem_append.2 (.inl (List.mem_flatMap.2 ⟨t, ht, List.mem_map.2 ⟨x,
      mem_late.2 ⟨hx, by simpa using hf, hi⟩, rfl⟩⟩))

include h in
/-- A table has one primary key. -/
theorem one_primary {s : Schema} (hs : s ∈ c.schemas) {t : Table} (ht : t ∈ s.tables) {x y : Constraint}
    (hx : x ∈ t.constraints) (hy : y ∈ t.constraints) (px : DdlText.primaryKey x = true)
    (py : DdlText.primaryKey y = true) : x = y := by
  have h0 := h.tables s hs t ht
  have h1 := h0.text.onePrimary
  have mem : ∀ {z : Constraint}, z ∈ t.constraints → DdlText.primaryKey z = true →
      z ∈ (liveConstraints t).filter DdlText.primaryKey := by
    intro z hz pz
    refine List.mem_filter.2 ⟨List.mem_filter.2 ⟨hz, ?_⟩, pz⟩
    rw [(h0.constraints z hz).1]; rfl
  have mx := mem hx px
  have my := mem hy py
  match hl : (liveConstraints t).filter DdlText.primaryKey, h1 with
  | [], _ => rw [hl] at mx; cases mx
  | [z], _ =>
    rw [hl] at mx my
    rw [List.mem_singleton.1 mx, List.mem_singleton.1 my]
  | z :: w :: r, h1 => simp at h1

/-- The primary key that is part of CREATE TABLE. -/
theorem find_inline (t : Table) : (t.constraints.find? fun x => (d = .mysql || d = .sqlserver) &&
    DdlText.primaryKey x) = t.constraints.find? fun x => inline d && DdlText.primaryKey x := by
  refine congrArg (fun p => t.constraints.find? p) (funext fun x => ?_)
  unfold inline
  by_cases h1 : d = .mysql <;> by_cases h2 : d = .sqlserver <;> simp [h1, h2]

include h in
/-- The four parts of a dump. -/
theorem dump_parts : Parts (DumpSpec.dbOf d (keywords d) c) (schemaMakes c) (tableMakes d c)
    (indexMakes d c) (conMakes d c) where
  nodup := makes_nodup h
  schemas := by
    intro m hm
    obtain ⟨s, hs, rfl⟩ := List.mem_map.1 hm
    exact ⟨_, rfl, List.any_eq_true.2 ⟨s, hs, by simp⟩⟩
  tables := by
    intro m hm
    obtain ⟨s, hs, t, ht, rfl⟩ := mem_tableMakes hm
    refine ⟨_, _, _, _, rfl, ?_, mem_tables h hs ht, ?_, ?_, ?_, ?_⟩
    · rw [List.map_map]
      exact ((h.ok.ok s hs).ok t ht).columns
    · funext n
      rw [puts_map (nm := fun x : Column => x.columnName) (mn := fun y : Col => y.name)
        (colOf d c.defaultCollation false) (fun _ _ => rfl)]
      show Option.map _ (t.columns.find? fun y => y.columnName == n) = _
      cases t.columns.find? fun y => y.columnName == n <;> rfl
    · intro n con hcon
      obtain ⟨x, h1, rfl⟩ := Option.map_eq_some_iff.1 hcon
      have hx := List.mem_of_find?_eq_some h1
      have en := List.find?_some h1
      rw [beq_iff_eq] at en
      subst en
      by_cases hi : (inline d && DdlText.primaryKey x) = true
      · refine .inl ?_
        rw [find_inline]
        cases e : t.constraints.find? fun x => inline d && DdlText.primaryKey x with
        | none =>
          rw [List.find?_eq_none] at e
          exact absurd hi (e x hx)
        | some y =>
          have hy := List.mem_of_find?_eq_some e
          have py := List.find?_some e
          rw [Bool.and_eq_true] at hi py
          rw [one_primary h hs ht hy hx py.2 hi.2]
          rfl
      · refine .inr (List.mem_map.2 ⟨_, mem_conMakes_of hs ht hx (by simpa using hi), rfl⟩)
    · intro p hp
      rw [find_inline] at hp
      obtain ⟨x, h1, rfl⟩ := Option.map_eq_some_iff.1 hp
      have hx := List.mem_of_find?_eq_some h1
      have hi := List.find?_some h1
      refine ⟨con_find h hs ht hx, fun hm => ?_⟩
      obtain ⟨m, hm, e⟩ := List.mem_map.1 hm
      obtain ⟨s', hs', t', x', h2, h3⟩ := mem_conMakes hm
      obtain ⟨_, rfl⟩ := con_eq h hs' hs h2 ⟨ht, hx, rfl⟩ e
      rw [h3] at hi; cases hi
    · intro n y hy
      obtain ⟨x, h1, h2⟩ := Option.bind_eq_some_iff.1 hy
      obtain ⟨z, h3, rfl⟩ := Option.map_eq_some_iff.1 h2
      have hx := List.mem_of_find?_eq_some h1
      have en := List.find?_some h1
      rw [beq_iff_eq] at en
      subst en
      refine List.mem_map.2 ⟨.idx (tname c.currentSchema t) z, ?_, ?_⟩
      · refine List.mem_flatMap.2 ⟨s, hs, List.mem_flatMap.2 ⟨t, ht, List.mem_flatMap.2 ⟨x, hx, ?_⟩⟩⟩
        rw [idxMakes, h3]; simp
      · show Id.idx _ z.name = _
        rw [(index_name h hs ht hx h3).1]
  indexes := by
    intro m hm
    obtain ⟨s, hs, t, ht, x, hx, y, hy, rfl⟩ := mem_indexMakes hm
    obtain ⟨h1, h2⟩ := index_name h hs ht hx hy
    refine ⟨_, _, _, rfl, h2, mem_tables h hs ht, ?_⟩
    show (t.indexes.find? fun x => x.indexName == y.name).bind _ = _
    rw [h1, find_name (fun y : Index => y.indexName) ((h.ok.ok s hs).ok t ht).indexes hx, Option.bind_some,
      hy]
    rfl
  cons := by
    intro m hm
    obtain ⟨s, hs, t, x, ⟨ht, hx, rfl⟩, _⟩ := mem_conMakes hm
    exact ⟨_, _, _, _, rfl, mem_tables h hs ht, con_find h hs ht hx⟩
  all := by
    intro k u hu
    obtain ⟨s, hs, t, ht, rfl, _⟩ := table_inv h hu
    exact List.mem_map.2 ⟨tableMake d c.currentSchema c.defaultCollation t,
      List.mem_flatMap.2 ⟨s, hs, List.mem_map.2 ⟨t, ht, rfl⟩⟩, rfl⟩
  allSchemas := by
    intro n hn
    obtain ⟨s, hs, e⟩ := List.any_eq_true.1 hn
    rw [beq_iff_eq] at e
    exact List.mem_map.2 ⟨.schema s.schemaName, List.mem_map.2 ⟨s, hs, rfl⟩, by rw [← e]; rfl⟩

/-- The condition `T` on foreign keys holds as soon as the table and a key are there. -/
def Keeps (T : Db → List Str → Ref → Prop) (inl : Bool) : Prop :=
  ∀ (db db' : Db) cs ref (u u' : Tbl), T db cs ref → db.table (key ref.table) = some u →
    db'.table (key ref.table) = some u' → u'.col = u.col → u'.idx = u.idx →
    (∀ n c, u'.con n = some c → u.con n = some c) →
    ((∀ n c cols, u.con n = some c → c.kind = .primary cols ∨ c.kind = .unique cols →
      u'.con n = some c) ∨ DumpSpec.EarlyKey inl u' ref.cols) → T db' cs ref

include h in
/-- When a foreign key is created, what it references is there. -/
theorem dump_targets {T : Db → List Str → Ref → Prop} {E : Str → Bool} (hk : Keeps T (inline d))
    (hT : ∀ k u n x cs ref, (DumpSpec.dbOf d (keywords d) c).table k = some u → u.con n = some x →
      x.kind = .foreign cs ref → T (DumpSpec.dbOf d (keywords d) c) cs ref)
    (ht0 : ∀ cs ref, T (DumpSpec.dbOf d (keywords d) c) cs ref →
      ∃ u, (DumpSpec.dbOf d (keywords d) c).table (key ref.table) = some u)
    (ho : DumpSpec.Ordered d (keywords d) c) (a : List Make) (nm : Name) (n : Str) (x : Con)
    (b : List Make) (e : conMakes d c = a ++ .con nm n x :: b) (cs : List Str) (ref : Ref)
    (hx : x.kind = .foreign cs ref) :
    T (part E (DumpSpec.dbOf d (keywords d) c) (.con nm n x :: b)) cs ref := by
  have hp := dump_parts h
  have hmem : ∀ m ∈ Make.con nm n x :: b, m ∈ conMakes d c := fun m hm => by rw [e]; simp [hm]
  obtain ⟨s1, s, s2, a', b', e1, e2, e3⟩ := flatMap_split e
  have hs : s ∈ c.schemas := by rw [e1]; simp
  have hs2 : ∀ s' ∈ s2, s' ∈ c.schemas := fun s' hs' => by rw [e1]; simp [hs']
  have hlate : Make.con nm n x ∉ lateMakes d c.currentSchema s := by
    intro hm
    obtain ⟨t, y, ⟨_, _, em⟩, h2, _⟩ := mem_lateMakes hm
    injection em with _ _ em
    have : foreignKey y = true := kind_foreign (d := d) (cur := c.currentSchema) |>.1 ⟨cs, ref, by
      rw [← hx, em]; rfl⟩
    rw [h2] at this; cases this
  have hq := append_split e2 hlate
  obtain ⟨t, y, ⟨ht, hy, em⟩, hf⟩ := mem_fkeyMakes (hq _ List.mem_cons_self)
  injection em with em1 em2 em3
  subst em1 em2 em3
  have hTG := hT _ _ _ _ cs ref (mem_tables h hs ht) (con_find h hs ht hy) hx
  obtain ⟨u, hu⟩ := ht0 cs ref hTG
  obtain ⟨g1, g2, g3⟩ := hp.target (E := E) hmem hu
  refine hk _ _ cs ref u _ hTG hu g1 g2 g3 (fun m z hz => (partTbl_con hz).2) ?_
  -- a key that is not there yet belongs to a later schema
  have hid : ∀ m z cols, u.con m = some z → z.kind = .primary cols ∨ z.kind = .unique cols →
      Id.con (key ref.table) m ∈ (Make.con (tname c.currentSchema t) y.constraintName
        (conOf d c.currentSchema y) :: b).map ident →
      ∃ s' ∈ s2, s'.schemaName = (key ref.table).1 := by
    intro m z cols hz hkind hm
    obtain ⟨mk, hmk, ei⟩ := List.mem_map.1 hm
    have hcon := hp.cons mk (hmem mk hmk)
    obtain ⟨nm', n', z', u', rfl, hu', hz'⟩ := hcon
    have ei : Id.con (key nm') n' = Id.con (key ref.table) m := ei
    injection ei with ei1 ei2
    subst ei2
    rw [ei1, hu] at hu'
    cases hu'
    rw [hz] at hz'
    cases hz'
    have hnf : Make.con nm' n' z ∉ fkeyMakes d c.currentSchema s := by
      intro hf
      obtain ⟨t', y', ⟨_, _, em⟩, hf⟩ := mem_fkeyMakes hf
      injection em with _ _ em
      obtain ⟨cs', ref', hk'⟩ := kind_foreign (d := d) (cur := c.currentSchema).2 hf
      rw [em] at hkind
      have : (conOf d c.currentSchema y').kind = .foreign cs' ref' := hk'
      rw [this] at hkind
      rcases hkind with h | h <;> cases h
    have hin : Make.con nm' n' z ∈ s2.flatMap fun s => lateMakes d c.currentSchema s ++
        fkeyMakes d c.currentSchema s := by
      rw [e3, ← List.cons_append] at hmk
      rcases List.mem_append.1 hmk with hmk | hmk
      · exact absurd (hq _ hmk) hnf
      · exact hmk
    obtain ⟨s', hs', hm'⟩ := List.mem_flatMap.1 hin
    have : ∃ t' x', IsCon d c.currentSchema s' (.con nm' n' z) t' x' := by
      rcases List.mem_append.1 hm' with hm' | hm'
      · obtain ⟨t', x', h1, _⟩ := mem_lateMakes hm'; exact ⟨t', x', h1⟩
      · obtain ⟨t', x', h1, _⟩ := mem_fkeyMakes hm'; exact ⟨t', x', h1⟩
    obtain ⟨t', x', ht', _, em⟩ := this
    injection em with em _ _
    refine ⟨s', hs', ?_⟩
    rw [← ei1, em, (table_name h (hs2 s' hs') ht').2, (table_name h (hs2 s' hs') ht').1]
  by_cases hlater : ∃ s' ∈ s2, s'.schemaName = (key ref.table).1
  · refine .inr ?_
    have he := ho s1 s s2 e1 t ht y hy cs ref hx hlater u hu
    rcases he with ⟨h1, m, z, hz, hkind⟩ | ⟨m, z, hz, h1⟩
    · refine .inl ⟨h1, m, z, ?_, hkind⟩
      rw [partTbl_con_of, hz]
      refine any_false (any_con _ _ _) fun hm => ?_
      obtain ⟨mk, hmk, ei⟩ := List.mem_map.1 hm
      obtain ⟨s', hs', t', x', ⟨ht', hx', rfl⟩, h3⟩ := mem_conMakes (hmem mk hmk)
      have ei : Id.con (key (tname c.currentSchema t')) x'.constraintName = Id.con (key ref.table) m := ei
      injection ei with ei1 ei2
      subst ei2
      have hu' := mem_tables h hs' ht'
      rw [ei1, hu] at hu'
      cases hu'
      rw [con_find h hs' ht' hx'] at hz
      cases hz
      have : DdlText.primaryKey x' = true := kind_primary (d := d) (cur := c.currentSchema).1 ⟨_, hkind⟩
      have h1 : inline d = true := h1
      rw [h1, this] at h3
      cases h3
    · refine .inr ⟨m, z, ?_, h1⟩
      rw [g3]; exact hz
  · refine .inl fun m z cols hz hkind => ?_
    rw [partTbl_con_of, hz]
    exact any_false (any_con _ _ _) fun hm => hlater (hid m z cols hz hkind hm)

end

end DumpParts
