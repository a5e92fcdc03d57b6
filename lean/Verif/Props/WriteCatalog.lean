import Verif.Model.WriteCatalog
import Verif.Spec.CacheOps
import Verif.Lemmas.CacheOps

/-!
# Copying a catalog keeps everything (C32)
-/

namespace Sqddl
open CacheSpec

/-- The keys of all maps of a cache. -/
inductive Key
  | schema (n : Str)
  | enum (s n : Str)
  | domain (s n : Str)
  | routine (s n a : Str)
  | view (s n : Str)
  | table (s n : Str)
  | column (s t n : Str)
  | constraint (s t n : Str)
  | index (s t n : Str)
  | trigger (s t n : Str)
deriving DecidableEq

/-- The cache has the key. -/
def holds (c : CatalogCache) : Key → Prop
  | .schema n => c.schemas.get n ≠ none
  | .enum s n => c.enums.get (s, n) ≠ none
  | .domain s n => c.domains.get (s, n) ≠ none
  | .routine s n a => c.routines.get (s, n, a) ≠ none
  | .view s n => c.views.get (s, n) ≠ none
  | .table s n => c.tables.get (s, n) ≠ none
  | .column s t n => c.columns.get (s, t, n) ≠ none
  | .constraint s t n => c.constraints.get (s, t, n) ≠ none
  | .index s t n => c.indexes.get (s, t, n) ≠ none
  | .trigger s t n => c.triggers.get (s, t, n) ≠ none

/-- Keys that can be added, each once. -/
def Free (c : CatalogCache) (ks : List Key) : Prop := ks.Nodup ∧ ∀ k ∈ ks, ¬ holds c k

/-- Exactly these keys were added. -/
def Grows (c c' : CatalogCache) (ks : List Key) : Prop := ∀ k, holds c' k ↔ holds c k ∨ k ∈ ks

/-- With free keys, the function adds them and gives this value. -/
def Writes {D : Type} (f : CatalogCache → Option (D × CatalogCache)) (ks : List Key) (out : D) :
    Prop :=
  ∀ c, Free c ks → ∃ c', f c = some (out, c') ∧ Grows c c' ks

theorem Writes.bind {D E : Type} {f : CatalogCache → Option (D × CatalogCache)}
    {g : CatalogCache → D → Option (E × CatalogCache)} {ks ks' : List Key} {d : D} {e : E}
    (hf : Writes f ks d) (hg : Writes (fun c => g c d) ks' e) :
    Writes (fun c => (f c).bind fun p => g p.2 p.1) (ks ++ ks') e := by
  intro c hfree
  obtain ⟨hn, hh⟩ := hfree
  rw [List.nodup_append] at hn
  obtain ⟨c', e1, g1⟩ := hf c ⟨hn.1, fun k hk => hh k (List.mem_append.2 (.inl hk))⟩
  obtain ⟨c'', e2, g2⟩ := hg c' ⟨hn.2.1, fun k hk h => by
    rcases (g1 k).1 h with h | h
    · exact hh k (List.mem_append.2 (.inr hk)) h
    · exact hn.2.2 k h k hk rfl⟩
  refine ⟨c'', by simp only [e1, Option.bind_some]; exact e2, fun k => ?_⟩
  rw [g2 k, g1 k, List.mem_append, or_assoc]

theorem Writes.map {D E : Type} {f : CatalogCache → Option (D × CatalogCache)} {ks : List Key}
    {d : D} (hf : Writes f ks d) (g : D → E) :
    Writes (fun c => (f c).map fun p => (g p.1, p.2)) ks (g d) := by
  intro c h
  obtain ⟨c', e, hg⟩ := hf c h
  exact ⟨c', by simp only [e, Option.map_some], hg⟩

/-- A loop whose body appends. -/
theorem Writes.list {D S : Type} {step : CatalogCache → D → S → Option (D × CatalogCache)}
    (P : D → Prop) (put : D → List S → D) (keys : S → List Key)
    (h0 : ∀ d, put d [] = d) (h2 : ∀ d l l', put (put d l) l' = put d (l ++ l'))
    (hP : ∀ d l, P d → P (put d l)) (xs : List S)
    (hs : ∀ x ∈ xs, ∀ d, P d → Writes (fun c => step c d x) (keys x) (put d [x])) (d : D) (hd : P d) :
    Writes (fun c => writeList step c d xs) (xs.flatMap keys) (put d xs) := by
  induction xs generalizing d with
  | nil => exact fun c _ => ⟨c, by rw [h0]; rfl, fun k => by simp⟩
  | cons x xs ih =>
    have := (hs x (List.mem_cons_self ..) d hd).bind
      (g := fun c d => writeList step c d xs)
      (ih (fun y hy => hs y (List.mem_cons_of_mem _ hy)) _ (hP _ _ hd))
    rw [h2] at this
    exact this

theorem getOrCreateIn_fresh {α K : Type} [DecidableEq K] {ignored : α → Bool} {new : α} {key : K}
    {xs : List α} {m : PosMap K} (h : m.get key = none) :
    getOrCreateIn ignored new key xs m = some (xs ++ [new], m.set key xs.length, xs.length) := by
  simp only [getOrCreateIn, slot, h, Option.elim, Option.map_some]

theorem assignAt_last {α : Type} (xs : List α) (a : α) (f : α → α) :
    assignAt (xs ++ [a]) xs.length f = xs ++ [f a] := by
  simp [assignAt]

theorem holds_set {K : Type} [DecidableEq K] (m : PosMap K) (k k' : K) (n : Nat) :
    (m.set k n).get k' ≠ none ↔ m.get k' ≠ none ∨ k' = k := by
  rw [PosMap.get_set]
  split
  · rename_i h; simp [h]
  · rename_i h; simp [h]

theorem writeEnum_ok {n : Str} (x : Enum) (d : Schema) (hd : d.schemaName = n) :
    Writes (fun c => writeEnum c d x) [.enum n x.enumName]
      { d with enums := d.enums ++ [x] } := by
  subst hd
  intro c h
  have hk : c.enums.get (d.schemaName, x.enumName) = none := by
    simpa [holds] using h.2 _ (List.mem_singleton.2 rfl)
  refine ⟨{ c with enums := c.enums.set (d.schemaName, x.enumName) d.enums.length }, ?_, ?_⟩
  · simp only [writeEnum, CatalogCache.getOrCreateEnum, getOrCreateIn_fresh hk, Option.map_some,
      assignAt_last]
  · intro k
    cases k <;> simp only [holds, holds_set, List.mem_singleton, reduceCtorEq, or_false,
      Prod.mk.injEq, Key.enum.injEq]

theorem writeDomain_ok {n : Str} (x : Domain) (d : Schema) (hd : d.schemaName = n) :
    Writes (fun c => writeDomain c d x) [.domain n x.domainName]
      { d with domains := d.domains ++ [x] } := by
  subst hd
  intro c h
  have hk : c.domains.get (d.schemaName, x.domainName) = none := by
    simpa [holds] using h.2 _ (List.mem_singleton.2 rfl)
  refine ⟨{ c with domains := c.domains.set (d.schemaName, x.domainName) d.domains.length }, ?_, ?_⟩
  · simp only [writeDomain, CatalogCache.getOrCreateDomain, getOrCreateIn_fresh hk,
      Option.map_some, assignAt_last]
  · intro k
    cases k <;> simp only [holds, holds_set, List.mem_singleton, reduceCtorEq, or_false,
      Prod.mk.injEq, Key.domain.injEq]

theorem writeRoutine_ok {n : Str} (x : Routine) (d : Schema) (hd : d.schemaName = n) :
    Writes (fun c => writeRoutine c d x) [.routine n x.routineName x.identityArguments]
      { d with routines := d.routines ++ [x] } := by
  subst hd
  intro c h
  have hk : c.routines.get (d.schemaName, x.routineName, x.identityArguments) = none := by
    simpa [holds] using h.2 _ (List.mem_singleton.2 rfl)
  refine ⟨{ c with
    routines := c.routines.set (d.schemaName, x.routineName, x.identityArguments)
      d.routines.length }, ?_, ?_⟩
  · simp only [writeRoutine, CatalogCache.getOrCreateRoutine, getOrCreateIn_fresh hk,
      Option.map_some, assignAt_last]
  · intro k
    cases k <;> simp only [holds, holds_set, List.mem_singleton, reduceCtorEq, or_false,
      Prod.mk.injEq, Key.routine.injEq]

theorem writeColumn_ok {n m : Str} (x : Column) (d : Table)
    (hd : d.tableSchema = n ∧ d.tableName = m) :
    Writes (fun c => writeColumn c d x) [.column n m x.columnName]
      { d with columns := d.columns ++ [x] } := by
  obtain ⟨rfl, rfl⟩ := hd
  intro c h
  have hk : c.columns.get (d.tableSchema, d.tableName, x.columnName) = none := by
    simpa [holds] using h.2 _ (List.mem_singleton.2 rfl)
  refine ⟨{ c with
    columns := c.columns.set (d.tableSchema, d.tableName, x.columnName) d.columns.length }, ?_, ?_⟩
  · simp only [writeColumn, CatalogCache.getOrCreateColumn, getOrCreateIn_fresh hk,
      Option.map_some, assignAt_last]
  · intro k
    cases k <;> simp only [holds, holds_set, List.mem_singleton, reduceCtorEq, or_false,
      Prod.mk.injEq, Key.column.injEq]

theorem writeConstraint_ok {n m : Str} (x : Constraint) (d : Table)
    (hd : d.tableSchema = n ∧ d.tableName = m) :
    Writes (fun c => writeConstraint c d x) [.constraint n m x.constraintName]
      { d with constraints := d.constraints ++ [x] } := by
  obtain ⟨rfl, rfl⟩ := hd
  intro c h
  have hk : c.constraints.get (d.tableSchema, d.tableName, x.constraintName) = none := by
    simpa [holds] using h.2 _ (List.mem_singleton.2 rfl)
  refine ⟨{ c.registerKey d x.constraintType with
    constraints := c.constraints.set (d.tableSchema, d.tableName, x.constraintName)
      d.constraints.length }, ?_, ?_⟩
  · simp only [writeConstraint, CatalogCache.getOrCreateConstraint, slot, hk, Option.elim,
      Option.map_some, assignAt_last]
  · intro k
    unfold CatalogCache.registerKey
    split
    · cases k <;> simp only [holds, holds_set, List.mem_singleton, reduceCtorEq, or_false,
        Prod.mk.injEq, Key.constraint.injEq]
    · split
      · cases k <;> simp only [holds, holds_set, List.mem_singleton, reduceCtorEq, or_false,
          Prod.mk.injEq, Key.constraint.injEq]
      · cases k <;> simp only [holds, holds_set, List.mem_singleton, reduceCtorEq, or_false,
          Prod.mk.injEq, Key.constraint.injEq]

theorem writeIndex_ok {n m : Str} (x : Index) (d : Table)
    (hd : d.tableSchema = n ∧ d.tableName = m) :
    Writes (fun c => writeIndex c d x) [.index n m x.indexName]
      { d with indexes := d.indexes ++ [x] } := by
  obtain ⟨rfl, rfl⟩ := hd
  intro c h
  have hk : c.indexes.get (d.tableSchema, d.tableName, x.indexName) = none := by
    simpa [holds] using h.2 _ (List.mem_singleton.2 rfl)
  refine ⟨{ c with
    indexes := c.indexes.set (d.tableSchema, d.tableName, x.indexName) d.indexes.length }, ?_, ?_⟩
  · simp only [writeIndex, CatalogCache.getOrCreateIndex, getOrCreateIn_fresh hk,
      Option.map_some, assignAt_last]
  · intro k
    cases k <;> simp only [holds, holds_set, List.mem_singleton, reduceCtorEq, or_false,
      Prod.mk.injEq, Key.index.injEq]

theorem writeTrigger_ok {n m : Str} (x : Trigger) (d : Table)
    (hd : d.tableSchema = n ∧ d.tableName = m) :
    Writes (fun c => writeTrigger c d x) [.trigger n m x.triggerName]
      { d with triggers := d.triggers ++ [x] } := by
  obtain ⟨rfl, rfl⟩ := hd
  intro c h
  have hk : c.triggers.get (d.tableSchema, d.tableName, x.triggerName) = none := by
    simpa [holds] using h.2 _ (List.mem_singleton.2 rfl)
  refine ⟨{ c with
    triggers := c.triggers.set (d.tableSchema, d.tableName, x.triggerName) d.triggers.length },
    ?_, ?_⟩
  · simp only [writeTrigger, CatalogCache.getOrCreateTrigger, getOrCreateIn_fresh hk,
      Option.map_some, assignAt_last]
  · intro k
    cases k <;> simp only [holds, holds_set, List.mem_singleton, reduceCtorEq, or_false,
      Prod.mk.injEq, Key.trigger.injEq]

theorem writeViewIndex_ok {n m : Str} (x : Index) (d : View)
    (hd : d.viewSchema = n ∧ d.viewName = m) :
    Writes (fun c => writeViewIndex c d x) [.index n m x.indexName]
      { d with indexes := d.indexes ++ [x] } := by
  obtain ⟨rfl, rfl⟩ := hd
  intro c h
  have hk : c.indexes.get (d.viewSchema, d.viewName, x.indexName) = none := by
    simpa [holds] using h.2 _ (List.mem_singleton.2 rfl)
  refine ⟨{ c with
    indexes := c.indexes.set (d.viewSchema, d.viewName, x.indexName) d.indexes.length }, ?_, ?_⟩
  · simp only [writeViewIndex, CatalogCache.getOrCreateViewIndex, getOrCreateIn_fresh hk,
      Option.map_some, assignAt_last]
  · intro k
    cases k <;> simp only [holds, holds_set, List.mem_singleton, reduceCtorEq, or_false,
      Prod.mk.injEq, Key.index.injEq]

theorem writeViewTrigger_ok {n m : Str} (x : Trigger) (d : View)
    (hd : d.viewSchema = n ∧ d.viewName = m) :
    Writes (fun c => writeViewTrigger c d x) [.trigger n m x.triggerName]
      { d with triggers := d.triggers ++ [x] } := by
  obtain ⟨rfl, rfl⟩ := hd
  intro c h
  have hk : c.triggers.get (d.viewSchema, d.viewName, x.triggerName) = none := by
    simpa [holds] using h.2 _ (List.mem_singleton.2 rfl)
  refine ⟨{ c with
    triggers := c.triggers.set (d.viewSchema, d.viewName, x.triggerName) d.triggers.length },
    ?_, ?_⟩
  · simp only [writeViewTrigger, CatalogCache.getOrCreateViewTrigger, getOrCreateIn_fresh hk,
      Option.map_some, assignAt_last]
  · intro k
    cases k <;> simp only [holds, holds_set, List.mem_singleton, reduceCtorEq, or_false,
      Prod.mk.injEq, Key.trigger.injEq]

/-! ## Tables, views, schemas -/

/-- The keys of the objects of a table. -/
def tableKeys (t : Table) : List Key :=
  t.columns.flatMap (fun x => [.column t.tableSchema t.tableName x.columnName]) ++
  (t.constraints.flatMap (fun x => [.constraint t.tableSchema t.tableName x.constraintName]) ++
  (t.indexes.flatMap (fun x => [.index t.tableSchema t.tableName x.indexName]) ++
  t.triggers.flatMap (fun x => [.trigger t.tableSchema t.tableName x.triggerName])))

/-- The keys of the objects of a view. -/
def viewKeys (v : View) : List Key :=
  v.indexes.flatMap (fun x => [.index v.viewSchema v.viewName x.indexName]) ++
  v.triggers.flatMap (fun x => [.trigger v.viewSchema v.viewName x.triggerName])

/-- The keys of the objects of a schema. -/
def schemaKeys (s : Schema) : List Key :=
  s.enums.flatMap (fun x => [.enum s.schemaName x.enumName]) ++
  (s.domains.flatMap (fun x => [.domain s.schemaName x.domainName]) ++
  (s.routines.flatMap (fun x => [.routine s.schemaName x.routineName x.identityArguments]) ++
  (s.views.flatMap (fun v => [.view s.schemaName v.viewName] ++ viewKeys v) ++
  s.tables.flatMap (fun t => [.table s.schemaName t.tableName] ++ tableKeys t))))

/-- The keys of a catalog. -/
def catalogKeys (cat : Catalog) : List Key :=
  cat.schemas.flatMap fun s => [.schema s.schemaName] ++ schemaKeys s

/-- A table as `WriteCatalog` copies it. -/
def plainTable (t : Table) : Table := { t with isVirtual := false }

/-- A schema as `WriteCatalog` copies it. -/
def plainSchema (s : Schema) : Schema := { s with tables := s.tables.map plainTable }

/-- The table has these names. -/
def Named (n m : Str) (d : Table) : Prop := d.tableSchema = n ∧ d.tableName = m

/-- The view has these names. -/
def ViewNamed (n m : Str) (d : View) : Prop := d.viewSchema = n ∧ d.viewName = m

theorem writeColumns_ok {n m : Str} (xs : List Column) (d : Table) (hd : Named n m d) :
    Writes (fun c => writeList writeColumn c d xs) (xs.flatMap fun x => [.column n m x.columnName])
      { d with columns := d.columns ++ xs } :=
  Writes.list (Named n m) (fun d l => { d with columns := d.columns ++ l }) _ (by simp) (by simp)
    (fun _ _ h => h) xs (fun x _ d hd => writeColumn_ok x d hd) d hd

theorem writeConstraints_ok {n m : Str} (xs : List Constraint) (d : Table) (hd : Named n m d) :
    Writes (fun c => writeList writeConstraint c d xs)
      (xs.flatMap fun x => [.constraint n m x.constraintName])
      { d with constraints := d.constraints ++ xs } :=
  Writes.list (Named n m) (fun d l => { d with constraints := d.constraints ++ l }) _ (by simp)
    (by simp) (fun _ _ h => h) xs (fun x _ d hd => writeConstraint_ok x d hd) d hd

theorem writeIndexes_ok {n m : Str} (xs : List Index) (d : Table) (hd : Named n m d) :
    Writes (fun c => writeList writeIndex c d xs) (xs.flatMap fun x => [.index n m x.indexName])
      { d with indexes := d.indexes ++ xs } :=
  Writes.list (Named n m) (fun d l => { d with indexes := d.indexes ++ l }) _ (by simp) (by simp)
    (fun _ _ h => h) xs (fun x _ d hd => writeIndex_ok x d hd) d hd

theorem writeTriggers_ok {n m : Str} (xs : List Trigger) (d : Table) (hd : Named n m d) :
    Writes (fun c => writeList writeTrigger c d xs)
      (xs.flatMap fun x => [.trigger n m x.triggerName])
      { d with triggers := d.triggers ++ xs } :=
  Writes.list (Named n m) (fun d l => { d with triggers := d.triggers ++ l }) _ (by simp) (by simp)
    (fun _ _ h => h) xs (fun x _ d hd => writeTrigger_ok x d hd) d hd

theorem writeViewIndexes_ok {n m : Str} (xs : List Index) (d : View) (hd : ViewNamed n m d) :
    Writes (fun c => writeList writeViewIndex c d xs) (xs.flatMap fun x => [.index n m x.indexName])
      { d with indexes := d.indexes ++ xs } :=
  Writes.list (ViewNamed n m) (fun d l => { d with indexes := d.indexes ++ l }) _ (by simp)
    (by simp) (fun _ _ h => h) xs (fun x _ d hd => writeViewIndex_ok x d hd) d hd

theorem writeViewTriggers_ok {n m : Str} (xs : List Trigger) (d : View) (hd : ViewNamed n m d) :
    Writes (fun c => writeList writeViewTrigger c d xs)
      (xs.flatMap fun x => [.trigger n m x.triggerName])
      { d with triggers := d.triggers ++ xs } :=
  Writes.list (ViewNamed n m) (fun d l => { d with triggers := d.triggers ++ l }) _ (by simp)
    (by simp) (fun _ _ h => h) xs (fun x _ d hd => writeViewTrigger_ok x d hd) d hd

theorem writeTableBody_ok (x : Table) (a b : Str) :
    Writes (fun c => writeTableBody c { tableSchema := a, tableName := b } x) (tableKeys x)
      (plainTable x) := by
  have h1 := fun d (h : Named x.tableSchema x.tableName d) => writeTriggers_ok x.triggers d h
  have h2 := fun d (h : Named x.tableSchema x.tableName d) =>
    (writeIndexes_ok x.indexes d h).bind (g := fun c p => writeList writeTrigger c p x.triggers)
      (h1 _ h)
  have h3 := fun d (h : Named x.tableSchema x.tableName d) =>
    (writeConstraints_ok x.constraints d h).bind
      (g := fun c p => (writeList writeIndex c p x.indexes).bind fun p =>
        writeList writeTrigger p.2 p.1 x.triggers) (h2 _ h)
  have h4 := fun d (h : Named x.tableSchema x.tableName d) =>
    (writeColumns_ok x.columns d h).bind
      (g := fun c p => (writeList writeConstraint c p x.constraints).bind fun p =>
        (writeList writeIndex p.2 p.1 x.indexes).bind fun p =>
        writeList writeTrigger p.2 p.1 x.triggers) (h3 _ h)
  exact h4 { tableSchema := x.tableSchema, tableName := x.tableName, sql := x.sql,
             comment := x.comment, ignore := x.ignore } ⟨rfl, rfl⟩

theorem writeViewBody_ok (x : View) (a b : Str) :
    Writes (fun c => writeViewBody c { viewSchema := a, viewName := b } x) (viewKeys x) x := by
  have h1 := fun d (h : ViewNamed x.viewSchema x.viewName d) => writeViewTriggers_ok x.triggers d h
  have h2 := fun d (h : ViewNamed x.viewSchema x.viewName d) =>
    (writeViewIndexes_ok x.indexes d h).bind
      (g := fun c p => writeList writeViewTrigger c p x.triggers) (h1 _ h)
  exact h2 { viewSchema := x.viewSchema, viewName := x.viewName,
             isMaterialized := x.isMaterialized, sql := x.sql, columns := x.columns,
             columnTypes := x.columnTypes, enumColumns := x.enumColumns,
             comment := x.comment, ignore := x.ignore } ⟨rfl, rfl⟩

/-- A step that creates an object and then fills it. -/
theorem Writes.cons {D : Type} {f : CatalogCache → Option (D × CatalogCache)} {k : Key}
    {ks : List Key} {d : D} {g : CatalogCache → Option (D × CatalogCache)}
    (hg : ∀ c, Free c [k] → ∃ c', f c = g c' ∧ Grows c c' [k]) (hf : Writes g ks d) :
    Writes f ([k] ++ ks) d := by
  intro c h
  obtain ⟨hn, hh⟩ := h
  have hn' := List.nodup_append.1 hn
  obtain ⟨c', e, g1⟩ := hg c ⟨hn'.1, fun k hk => hh k (List.mem_append.2 (.inl hk))⟩
  obtain ⟨c'', e2, g2⟩ := hf c' ⟨hn'.2.1, fun k hk h => by
    rcases (g1 k).1 h with h | h
    · exact hh k (List.mem_append.2 (.inr hk)) h
    · exact hn'.2.2 k h k hk rfl⟩
  refine ⟨c'', e.trans e2, fun k => ?_⟩
  rw [g2 k, g1 k, List.mem_append, or_assoc]

theorem writeTable_ok {n : Str} (x : Table) (d : Schema) (hd : d.schemaName = n) :
    Writes (fun c => writeTable c d x) ([.table n x.tableName] ++ tableKeys x)
      { d with tables := d.tables ++ [plainTable x] } := by
  subst hd
  refine Writes.cons (fun c h => ?_) ((writeTableBody_ok x d.schemaName x.tableName).map
    fun t => { d with tables := d.tables ++ [t] })
  have hk : c.tables.get (d.schemaName, x.tableName) = none := by
    simpa [holds] using h.2 _ (List.mem_singleton.2 rfl)
  refine ⟨{ c with tables := c.tables.set (d.schemaName, x.tableName) d.tables.length }, ?_, ?_⟩
  · simp [writeTable, CatalogCache.getOrCreateTable, getOrCreateIn_fresh hk]
  · intro k
    cases k <;> simp only [holds, holds_set, List.mem_singleton, reduceCtorEq, or_false,
      Prod.mk.injEq, Key.table.injEq]

theorem writeView_ok {n : Str} (x : View) (d : Schema) (hd : d.schemaName = n) :
    Writes (fun c => writeView c d x) ([.view n x.viewName] ++ viewKeys x)
      { d with views := d.views ++ [x] } := by
  subst hd
  refine Writes.cons (fun c h => ?_) ((writeViewBody_ok x d.schemaName x.viewName).map
    fun t => { d with views := d.views ++ [t] })
  have hk : c.views.get (d.schemaName, x.viewName) = none := by
    simpa [holds] using h.2 _ (List.mem_singleton.2 rfl)
  refine ⟨{ c with views := c.views.set (d.schemaName, x.viewName) d.views.length }, ?_, ?_⟩
  · simp [writeView, CatalogCache.getOrCreateView, getOrCreateIn_fresh hk]
  · intro k
    cases k <;> simp only [holds, holds_set, List.mem_singleton, reduceCtorEq, or_false,
      Prod.mk.injEq, Key.view.injEq]

/-- The schema has this name. -/
def SchemaNamed (n : Str) (d : Schema) : Prop := d.schemaName = n

theorem writeEnums_ok {n : Str} (xs : List Enum) (d : Schema) (hd : SchemaNamed n d) :
    Writes (fun c => writeList writeEnum c d xs) (xs.flatMap fun x => [.enum n x.enumName])
      { d with enums := d.enums ++ xs } :=
  Writes.list (SchemaNamed n) (fun d l => { d with enums := d.enums ++ l }) _ (by simp) (by simp)
    (fun _ _ h => h) xs (fun x _ d hd => writeEnum_ok x d hd) d hd

theorem writeDomains_ok {n : Str} (xs : List Domain) (d : Schema) (hd : SchemaNamed n d) :
    Writes (fun c => writeList writeDomain c d xs) (xs.flatMap fun x => [.domain n x.domainName])
      { d with domains := d.domains ++ xs } :=
  Writes.list (SchemaNamed n) (fun d l => { d with domains := d.domains ++ l }) _ (by simp)
    (by simp) (fun _ _ h => h) xs (fun x _ d hd => writeDomain_ok x d hd) d hd

theorem writeRoutines_ok {n : Str} (xs : List Routine) (d : Schema) (hd : SchemaNamed n d) :
    Writes (fun c => writeList writeRoutine c d xs)
      (xs.flatMap fun x => [.routine n x.routineName x.identityArguments])
      { d with routines := d.routines ++ xs } :=
  Writes.list (SchemaNamed n) (fun d l => { d with routines := d.routines ++ l }) _ (by simp)
    (by simp) (fun _ _ h => h) xs (fun x _ d hd => writeRoutine_ok x d hd) d hd

theorem writeViews_ok {n : Str} (xs : List View) (d : Schema) (hd : SchemaNamed n d) :
    Writes (fun c => writeList writeView c d xs)
      (xs.flatMap fun x => [.view n x.viewName] ++ viewKeys x)
      { d with views := d.views ++ xs } :=
  Writes.list (SchemaNamed n) (fun d l => { d with views := d.views ++ l }) _ (by simp)
    (by simp) (fun _ _ h => h) xs (fun x _ d hd => writeView_ok x d hd) d hd

theorem writeTables_ok {n : Str} (xs : List Table) (d : Schema) (hd : SchemaNamed n d) :
    Writes (fun c => writeList writeTable c d xs)
      (xs.flatMap fun x => [.table n x.tableName] ++ tableKeys x)
      { d with tables := d.tables ++ xs.map plainTable } :=
  Writes.list (SchemaNamed n) (fun d l => { d with tables := d.tables ++ l.map plainTable }) _
    (by simp) (by simp) (fun _ _ h => h) xs (fun x _ d hd => writeTable_ok x d hd) d hd

theorem writeSchemaBody_ok (x : Schema) (a : Str) :
    Writes (fun c => writeSchemaBody c { schemaName := a } x) (schemaKeys x) (plainSchema x) := by
  have h1 := fun d (h : SchemaNamed x.schemaName d) => writeTables_ok x.tables d h
  have h2 := fun d (h : SchemaNamed x.schemaName d) =>
    (writeViews_ok x.views d h).bind (g := fun c p => writeList writeTable c p x.tables) (h1 _ h)
  have h3 := fun d (h : SchemaNamed x.schemaName d) =>
    (writeRoutines_ok x.routines d h).bind
      (g := fun c p => (writeList writeView c p x.views).bind fun p =>
        writeList writeTable p.2 p.1 x.tables) (h2 _ h)
  have h4 := fun d (h : SchemaNamed x.schemaName d) =>
    (writeDomains_ok x.domains d h).bind
      (g := fun c p => (writeList writeRoutine c p x.routines).bind fun p =>
        (writeList writeView p.2 p.1 x.views).bind fun p =>
        writeList writeTable p.2 p.1 x.tables) (h3 _ h)
  have h5 := fun d (h : SchemaNamed x.schemaName d) =>
    (writeEnums_ok x.enums d h).bind
      (g := fun c p => (writeList writeDomain c p x.domains).bind fun p =>
        (writeList writeRoutine p.2 p.1 x.routines).bind fun p =>
        (writeList writeView p.2 p.1 x.views).bind fun p =>
        writeList writeTable p.2 p.1 x.tables) (h4 _ h)
  exact h5 { schemaName := x.schemaName, comment := x.comment, ignore := x.ignore,
             enumsValid := x.enumsValid, domainsValid := x.domainsValid,
             routinesValid := x.routinesValid, viewsValid := x.viewsValid } rfl

theorem writeSchema_ok (x : Schema) (d : Catalog) :
    Writes (fun c => writeSchema c d x) ([.schema x.schemaName] ++ schemaKeys x)
      { d with schemas := d.schemas ++ [plainSchema x] } := by
  refine Writes.cons (fun c h => ?_) ((writeSchemaBody_ok x x.schemaName).map
    fun t => { d with schemas := d.schemas ++ [t] })
  have hk : c.schemas.get x.schemaName = none := by
    simpa [holds] using h.2 _ (List.mem_singleton.2 rfl)
  refine ⟨{ c with schemas := c.schemas.set x.schemaName d.schemas.length }, ?_, ?_⟩
  · simp [writeSchema, CatalogCache.getOrCreateSchema, getOrCreateIn_fresh hk]
  · intro k
    cases k <;> simp only [holds, holds_set, List.mem_singleton, reduceCtorEq, or_false,
      Key.schema.injEq]

theorem writeSchemas_ok (xs : List Schema) (d : Catalog) :
    Writes (fun c => writeList writeSchema c d xs)
      (xs.flatMap fun x => [.schema x.schemaName] ++ schemaKeys x)
      { d with schemas := d.schemas ++ xs.map plainSchema } :=
  Writes.list (fun _ => True) (fun d l => { d with schemas := d.schemas ++ l.map plainSchema }) _
    (by simp) (by simp) (fun _ _ h => h) xs (fun x _ d _ => writeSchema_ok x d) d trivial

/-! ## Distinct names give distinct keys -/

/-- Tables and views know the name of their schema, and no table has the name of a view. -/
structure Placed (s : Schema) : Prop where
  views : ∀ v ∈ s.views, v.viewSchema = s.schemaName
  tables : ∀ t ∈ s.tables, t.tableSchema = s.schemaName
  apart : ∀ v ∈ s.views, ∀ t ∈ s.tables, v.viewName ≠ t.tableName

/-- Keys of things with distinct names are distinct, if every key tells the name. -/
theorem nodup_flatMap_keys {α β : Type} {f : α → List Key} {name : α → β} {tell : Key → β}
    {xs : List α} (hn : (xs.map name).Nodup) (hf : ∀ x ∈ xs, (f x).Nodup)
    (ht : ∀ x ∈ xs, ∀ k ∈ f x, tell k = name x) : (xs.flatMap f).Nodup := by
  rw [List.Nodup, List.pairwise_flatMap]
  refine ⟨hf, ?_⟩
  rw [List.Nodup, List.pairwise_map] at hn
  refine List.Pairwise.imp_of_mem ?_ hn
  intro a b ha hb hab x hx y hy e
  subst e
  exact hab ((ht a ha x hx).symm.trans (ht b hb x hy))

theorem nodup_singletons {α β : Type} {f : α → Key} {name : α → β} {tell : Key → β}
    {xs : List α} (hn : (xs.map name).Nodup) (ht : ∀ x, tell (f x) = name x) :
    (xs.flatMap fun x => [f x]).Nodup :=
  nodup_flatMap_keys (tell := tell) hn (fun _ _ => by simp)
    fun x _ k hk => by cases List.mem_singleton.1 hk; exact ht x

theorem nodup_append_of {α : Type} {a b : List α} (P : α → Prop) (ha : a.Nodup) (hb : b.Nodup)
    (h1 : ∀ x ∈ a, P x) (h2 : ∀ x ∈ b, ¬ P x) : (a ++ b).Nodup :=
  List.nodup_append.2 ⟨ha, hb, fun x hx y hy e => h2 y hy (e ▸ h1 x hx)⟩

/-- The kind of object. -/
def Key.kind : Key → Nat
  | .schema .. => 0 | .enum .. => 1 | .domain .. => 2 | .routine .. => 3 | .view .. => 4
  | .table .. => 5 | .column .. => 6 | .constraint .. => 7 | .index .. => 8 | .trigger .. => 9

/-- The name of the schema. -/
def Key.inSchema : Key → Str
  | .schema n | .enum n _ | .domain n _ | .routine n _ _ | .view n _ | .table n _
  | .column n _ _ | .constraint n _ _ | .index n _ _ | .trigger n _ _ => n

/-- The second name: of the object in the schema. -/
def Key.second : Key → Str
  | .schema _ => [] | .enum _ n | .domain _ n | .routine _ n _ | .view _ n | .table _ n
  | .column _ n _ | .constraint _ n _ | .index _ n _ | .trigger _ n _ => n

/-- The third name: of the object in a table. -/
def Key.third : Key → Str
  | .column _ _ n | .constraint _ _ n | .index _ _ n | .trigger _ _ n | .routine _ _ n => n
  | _ => []

theorem mem_singletons {α : Type} {f : α → Key} {xs : List α} {k : Key}
    (h : k ∈ xs.flatMap fun x => [f x]) : ∃ x ∈ xs, k = f x := by
  obtain ⟨x, hx, hk⟩ := List.mem_flatMap.1 h
  exact ⟨x, hx, List.mem_singleton.1 hk⟩

theorem tableKeys_tell {t : Table} {k : Key} (h : k ∈ tableKeys t) :
    k.inSchema = t.tableSchema ∧ k.second = t.tableName ∧ 6 ≤ k.kind := by
  simp only [tableKeys, List.mem_append] at h
  rcases h with h | h | h | h
  all_goals
    obtain ⟨x, -, rfl⟩ := mem_singletons h
    simp [Key.inSchema, Key.second, Key.kind]

theorem viewKeys_tell {v : View} {k : Key} (h : k ∈ viewKeys v) :
    k.inSchema = v.viewSchema ∧ k.second = v.viewName ∧ 6 ≤ k.kind := by
  simp only [viewKeys, List.mem_append] at h
  rcases h with h | h
  all_goals
    obtain ⟨x, -, rfl⟩ := mem_singletons h
    simp [Key.inSchema, Key.second, Key.kind]

theorem tableKeys_nodup {t : Table} (h : TableDistinct t) : (tableKeys t).Nodup := by
  refine nodup_append_of (·.kind = 6) (nodup_singletons (tell := Key.third) h.columns fun _ => rfl)
    (nodup_append_of (·.kind = 7)
      (nodup_singletons (tell := Key.third) h.constraints fun _ => rfl)
      (nodup_append_of (·.kind = 8) (nodup_singletons (tell := Key.third) h.indexes fun _ => rfl)
        (nodup_singletons (tell := Key.third) h.triggers fun _ => rfl) ?_ ?_) ?_ ?_) ?_ ?_
  all_goals
    intro k hk
    grind [Key.kind, tableKeys]

theorem viewKeys_nodup {v : View} (h : ViewDistinct v) : (viewKeys v).Nodup := by
  refine nodup_append_of (·.kind = 8) (nodup_singletons (tell := Key.third) h.indexes fun _ => rfl)
    (nodup_singletons (tell := Key.third) h.triggers fun _ => rfl) ?_ ?_
  all_goals
    intro k hk
    grind [Key.kind]

theorem schemaKeys_tell {s : Schema} (hp : Placed s) {k : Key} (h : k ∈ schemaKeys s) :
    k.inSchema = s.schemaName ∧ k.kind ≠ 0 := by
  simp only [schemaKeys, List.mem_append] at h
  rcases h with h | h | h | h | h
  · obtain ⟨x, -, rfl⟩ := mem_singletons h; simp [Key.inSchema, Key.kind]
  · obtain ⟨x, -, rfl⟩ := mem_singletons h; simp [Key.inSchema, Key.kind]
  · obtain ⟨x, -, rfl⟩ := mem_singletons h; simp [Key.inSchema, Key.kind]
  · obtain ⟨v, hv, h⟩ := List.mem_flatMap.1 h
    rcases List.mem_append.1 h with h | h
    · cases List.mem_singleton.1 h; simp [Key.inSchema, Key.kind]
    · have := viewKeys_tell h
      have := hp.views v hv
      grind
  · obtain ⟨t, ht, h⟩ := List.mem_flatMap.1 h
    rcases List.mem_append.1 h with h | h
    · cases List.mem_singleton.1 h; simp [Key.inSchema, Key.kind]
    · have := tableKeys_tell h
      have := hp.tables t ht
      grind

theorem schemaKeys_nodup {s : Schema} (hd : SchemaDistinct s) (hp : Placed s) :
    (schemaKeys s).Nodup := by
  have hv : (s.views.flatMap fun v => [Key.view s.schemaName v.viewName] ++ viewKeys v).Nodup := by
    refine nodup_flatMap_keys (tell := Key.second) hd.views (fun v hv => ?_) (fun v _ k hk => ?_)
    · refine nodup_append_of (·.kind = 4) (by simp) (viewKeys_nodup (hd.ofViews v hv)) ?_ ?_
      · intro k hk; cases List.mem_singleton.1 hk; rfl
      · intro k hk; have := (viewKeys_tell hk).2.2; omega
    · rcases List.mem_append.1 hk with hk | hk
      · cases List.mem_singleton.1 hk; rfl
      · exact (viewKeys_tell hk).2.1
  have ht : (s.tables.flatMap fun t =>
      [Key.table s.schemaName t.tableName] ++ tableKeys t).Nodup := by
    refine nodup_flatMap_keys (tell := Key.second) hd.tables (fun v hv => ?_) (fun v _ k hk => ?_)
    · refine nodup_append_of (·.kind = 5) (by simp) (tableKeys_nodup (hd.ofTables v hv)) ?_ ?_
      · intro k hk; cases List.mem_singleton.1 hk; rfl
      · intro k hk; have := (tableKeys_tell hk).2.2; omega
    · rcases List.mem_append.1 hk with hk | hk
      · cases List.mem_singleton.1 hk; rfl
      · exact (tableKeys_tell hk).2.1
  have hvk : ∀ k ∈ s.views.flatMap (fun v => [Key.view s.schemaName v.viewName] ++ viewKeys v),
      3 < k.kind ∧ k.kind ≠ 5 ∧ ∃ v ∈ s.views, k.second = v.viewName := by
    intro k hk
    obtain ⟨v, hv, hk⟩ := List.mem_flatMap.1 hk
    rcases List.mem_append.1 hk with hk | hk
    · cases List.mem_singleton.1 hk; exact ⟨by simp [Key.kind], by simp [Key.kind], v, hv, rfl⟩
    · have := viewKeys_tell hk
      exact ⟨by omega, by omega, v, hv, this.2.1⟩
  have htk : ∀ k ∈ s.tables.flatMap (fun t => [Key.table s.schemaName t.tableName] ++ tableKeys t),
      3 < k.kind ∧ ∃ t ∈ s.tables, k.second = t.tableName := by
    intro k hk
    obtain ⟨t, ht, hk⟩ := List.mem_flatMap.1 hk
    rcases List.mem_append.1 hk with hk | hk
    · cases List.mem_singleton.1 hk; exact ⟨by simp [Key.kind], t, ht, rfl⟩
    · have := tableKeys_tell hk
      exact ⟨by omega, t, ht, this.2.1⟩
  have h5 : (s.views.flatMap (fun v => [Key.view s.schemaName v.viewName] ++ viewKeys v) ++
      s.tables.flatMap (fun t => [Key.table s.schemaName t.tableName] ++ tableKeys t)).Nodup := by
    refine List.nodup_append.2 ⟨hv, ht, fun k hk k' hk' e => ?_⟩
    subst e
    obtain ⟨-, -, v, hv', e1⟩ := hvk k hk
    obtain ⟨-, t, ht', e2⟩ := htk k hk'
    exact hp.apart v hv' t ht' (e1.symm.trans e2)
  have h5k : ∀ k ∈ s.views.flatMap (fun v => [Key.view s.schemaName v.viewName] ++ viewKeys v) ++
      s.tables.flatMap (fun t => [Key.table s.schemaName t.tableName] ++ tableKeys t),
      3 < k.kind := by
    intro k hk
    rcases List.mem_append.1 hk with hk | hk
    · exact (hvk k hk).1
    · exact (htk k hk).1
  have h1 : ∀ k ∈ s.enums.flatMap (fun x => [Key.enum s.schemaName x.enumName]), k.kind = 1 := by
    intro k hk; obtain ⟨x, -, rfl⟩ := mem_singletons hk; rfl
  have h2 : ∀ k ∈ s.domains.flatMap (fun x => [Key.domain s.schemaName x.domainName]),
      k.kind = 2 := by
    intro k hk; obtain ⟨x, -, rfl⟩ := mem_singletons hk; rfl
  have h3 : ∀ k ∈ s.routines.flatMap
      (fun x => [Key.routine s.schemaName x.routineName x.identityArguments]), k.kind = 3 := by
    intro k hk; obtain ⟨x, -, rfl⟩ := mem_singletons hk; rfl
  refine nodup_append_of (·.kind = 1)
    (nodup_singletons (tell := Key.second) hd.enums fun _ => rfl)
    (nodup_append_of (·.kind = 2) (nodup_singletons (tell := Key.second) hd.domains fun _ => rfl)
      (nodup_append_of (·.kind = 3)
        (nodup_singletons (tell := fun k => (k.second, k.third)) hd.routines fun _ => rfl)
        h5 h3 ?_) h2 ?_) h1 ?_
  · intro k hk e; have := h5k k hk; omega
  · intro k hk e
    rcases List.mem_append.1 hk with hk | hk
    · have := h3 k hk; omega
    · have := h5k k hk; omega
  · intro k hk e
    rcases List.mem_append.1 hk with hk | hk
    · have := h2 k hk; omega
    rcases List.mem_append.1 hk with hk | hk
    · have := h3 k hk; omega
    · have := h5k k hk; omega

theorem catalogKeys_nodup {cat : Catalog} (hd : Distinct cat) (hp : ∀ s ∈ cat.schemas, Placed s) :
    (catalogKeys cat).Nodup := by
  refine nodup_flatMap_keys (tell := Key.inSchema) hd.schemas (fun s hs => ?_) (fun s hs k hk => ?_)
  · refine nodup_append_of (·.kind = 0) (by simp) (schemaKeys_nodup (hd.ofSchemas s hs) (hp s hs))
      ?_ ?_
    · intro k hk; cases List.mem_singleton.1 hk; rfl
    · intro k hk; exact (schemaKeys_tell (hp s hs) hk).2
  · rcases List.mem_append.1 hk with hk | hk
    · cases List.mem_singleton.1 hk; rfl
    · exact (schemaKeys_tell (hp s hs) hk).1

/-! ## The theorem -/

/-- C32: writing a catalog in which names are distinct into an empty catalog (of any dialect, with
any settings) gives the catalog, except that `IsVirtual` of tables is lost.  Partial: see
`virtual_lost_refuted`; that the copy shares no memory is not expressed. -/
theorem writeCatalog_copies_partial {src : Catalog} (hd : Distinct src)
    (hp : ∀ s ∈ src.schemas, Placed s) (dest : Catalog) (he : dest.schemas = []) :
    writeCatalog src dest =
      some { src with
        schemas := src.schemas.map fun s =>
          { s with tables := s.tables.map fun t => { t with isVirtual := false } } } := by
  have hf : Free (newCatalogCache dest) (catalogKeys src) := by
    refine ⟨catalogKeys_nodup hd hp, fun k _ => ?_⟩
    cases k <;> simp [holds, newCatalogCache, he, PosMap.get, positions]
  obtain ⟨c', e, -⟩ := writeSchemas_ok src.schemas
    { dest with
      dialect := src.dialect
      versionNums := src.versionNums
      catalogName := src.catalogName
      currentSchema := src.currentSchema
      defaultCollation := src.defaultCollation
      extensions := src.extensions
      defaultCollationValid := src.defaultCollationValid
      extensionsValid := src.extensionsValid } _ hf
  simp only at e
  unfold writeCatalog
  rw [e, he]
  rfl

/-- C32: without virtual tables, the copy is equal. -/
theorem writeCatalog_equal {src : Catalog} (hd : Distinct src) (hp : ∀ s ∈ src.schemas, Placed s)
    (hv : ∀ s ∈ src.schemas, ∀ t ∈ s.tables, t.isVirtual = false) (dest : Catalog)
    (he : dest.schemas = []) : writeCatalog src dest = some src := by
  rw [writeCatalog_copies_partial hd hp dest he]
  congr 1
  have : src.schemas.map (fun s =>
      { s with tables := s.tables.map fun t => { t with isVirtual := false } }) = src.schemas := by
    refine (List.map_congr_left fun s hs => ?_).trans (List.map_id _)
    have : s.tables.map (fun t => { t with isVirtual := false }) = s.tables := by
      refine (List.map_congr_left fun t ht => ?_).trans (List.map_id _)
      have := hv s hs t ht
      cases t
      simp_all
    rw [this]
    rfl
  rw [this]

/-- A catalog with two schemas that have equal names for objects in them. -/
def twoSchemas : Catalog where
  dialect := b!"postgres"
  versionNums := [14, 2]
  extensions := [b!"hstore"]
  schemas := [
    { schemaName := b!"a"
      ignore := true
      comment := b!"x"
      routines := [{ routineName := b!"f", identityArguments := b!"int" },
                   { routineName := b!"f", identityArguments := b!"text" }]
      views := [{ viewSchema := b!"a", viewName := b!"v", isMaterialized := true,
                  indexes := [{ indexName := b!"i", columns := [b!"c"] }] }]
      tables := [{ tableSchema := b!"a", tableName := b!"t"
                   columns := [{ columnName := b!"c", columnType := b!"INT" }]
                   constraints := [{ constraintName := b!"p", constraintType := PRIMARY_KEY }]
                   indexes := [{ indexName := b!"i", columns := [b!"c"] }] }] },
    { schemaName := b!"b"
      enums := [{ enumName := b!"e", enumLabels := [b!"x", b!"y"] }]
      tables := [{ tableSchema := b!"b", tableName := b!"t"
                   columns := [{ columnName := b!"c", columnType := b!"TEXT", ignore := true }] }] }]

theorem twoSchemas_distinct : Distinct twoSchemas := by
  refine ⟨by decide +kernel, fun s hs => ?_⟩
  rcases List.mem_cons.1 hs with rfl | hs
  · refine ⟨by decide +kernel, by decide +kernel, by decide +kernel, by decide +kernel,
      by decide +kernel, ?_, ?_⟩
    · intro v hv
      cases List.mem_singleton.1 hv
      exact ⟨by decide +kernel, by decide +kernel⟩
    · intro t ht
      cases List.mem_singleton.1 ht
      exact ⟨by decide +kernel, by decide +kernel, by decide +kernel, by decide +kernel⟩
  · cases List.mem_singleton.1 hs
    refine ⟨by decide +kernel, by decide +kernel, by decide +kernel, by decide +kernel,
      by decide +kernel, by simp, ?_⟩
    intro t ht
    cases List.mem_singleton.1 ht
    exact ⟨by decide +kernel, by decide +kernel, by decide +kernel, by decide +kernel⟩

theorem twoSchemas_placed : ∀ s ∈ twoSchemas.schemas, Placed s := by
  intro s hs
  rcases List.mem_cons.1 hs with rfl | hs
  · exact ⟨by decide +kernel, by decide +kernel, by decide +kernel⟩
  · cases List.mem_singleton.1 hs
    exact ⟨by decide +kernel, by decide +kernel, by decide +kernel⟩

example : writeCatalog twoSchemas { dialect := b!"mysql" } = some twoSchemas :=
  writeCatalog_equal twoSchemas_distinct twoSchemas_placed (by decide +kernel) _ rfl

/-- The copy of a virtual table is not virtual. -/
theorem virtual_lost_refuted :
    writeCatalog { schemas := [{ tables := [{ tableName := b!"t", isVirtual := true }] }] } {} =
      some { schemas := [{ tables := [{ tableName := b!"t", isVirtual := false }] }] } := by
  decide +kernel

/-- Two constraints without names (on SQLite no constraint has a name) become one: the primary key
is lost. -/
theorem unnamed_constraints_lost_refuted :
    writeCatalog { schemas := [{ tables := [{
        tableName := b!"t"
        constraints := [{ constraintType := PRIMARY_KEY, columns := [b!"id"] },
                        { constraintType := UNIQUE, columns := [b!"email"] }] }] }] } {} =
      some { schemas := [{ tables := [{
        tableName := b!"t"
        constraints := [{ constraintType := UNIQUE, columns := [b!"email"] }] }] }] } := by
  decide +kernel

end Sqddl
