import Verif.Lemmas.MsConvergeDecide
import Verif.Spec.Dump

/-!
# Conditions on dumps can be checked

Decision procedures for the conditions of the theorems about dumps, used in examples only.
-/

namespace DumpSpec
open SqlSpec Sqddl DdlText EngineSpec CatalogSpec
open PgSpec (Names Listed allCons allIdxs mem_allCons mem_allIdxs allForeign mem_allForeign hasCol hasCol_iff)

/-- The names that occur in a catalog. -/
def names (c : Catalog) : Names where
  keys := (tables c).map fun t => (t.tableSchema, t.tableName)
  cons := (tables c).flatMap fun t => t.constraints.map (·.constraintName)
  idxs := (tables c).flatMap fun t => t.indexes.map (·.indexName)

theorem table_of {d : Dialect} {kw : List Str} {c : Catalog} {k : Key} {t : Tbl}
    (h : (dbOf d kw c).table k = some t) : ∃ u ∈ tables c, (u.tableSchema, u.tableName) = k ∧
      tblOf d kw c.currentSchema c.defaultCollation u = t := by
  obtain ⟨u, hu, e⟩ := Option.map_eq_some_iff.1 h
  exact ⟨u, List.mem_of_find?_eq_some hu, eq_of_beq (List.find?_some
    (p := fun t : Table => (t.tableSchema, t.tableName) == k) hu), e⟩

theorem listed (d : Dialect) (kw : List Str) (c : Catalog) : Listed (names c) (dbOf d kw c) := by
  refine ⟨?_, ?_, ?_⟩
  · intro k t h
    obtain ⟨u, hu, e, -⟩ := table_of h
    exact List.mem_map.2 ⟨u, hu, e⟩
  · intro k t n x h h2
    obtain ⟨u, hu, -, rfl⟩ := table_of h
    obtain ⟨y, hy, -⟩ := Option.map_eq_some_iff.1 h2
    exact List.mem_flatMap.2 ⟨u, hu, List.mem_map.2 ⟨y, List.mem_of_find?_eq_some hy,
      eq_of_beq (List.find?_some (p := fun c : Constraint => c.constraintName == n) hy)⟩⟩
  · intro k t n x h h2
    obtain ⟨u, hu, -, rfl⟩ := table_of h
    obtain ⟨y, hy, -⟩ := Option.bind_eq_some_iff.1 h2
    exact List.mem_flatMap.2 ⟨u, hu, List.mem_map.2 ⟨y, List.mem_of_find?_eq_some hy,
      eq_of_beq (List.find?_some (p := fun c : Index => c.indexName == n) hy)⟩⟩

/-- The columns of a primary key. -/
def primaryCols : ConKind → List Str
  | .primary cs => cs
  | _ => []

theorem keysNotNull_of {l : Names} {db : Db} (hl : Listed l db)
    (h : ∀ q ∈ allCons l db, ∀ x ∈ primaryCols q.2.2.kind,
      ((db.table q.1).bind fun t => t.col x).all (fun y => y.notNull) = true) : KeysNotNull db := by
  intro k t n c cs hk hn hc x hx y hy
  have := h _ (mem_allCons hl hk hn) x (by dsimp only; rw [hc]; exact hx)
  dsimp only at this
  rw [hk, Option.bind_some, hy, Option.all_some] at this
  exact this

/-- The conditions of `EarlyKey`, for the names in the lists. -/
def EarlyCheck (inline : Bool) (l : Names) (t : Tbl) (cols : List Str) : Prop :=
  (inline = true ∧ ∃ n ∈ l.cons, (t.con n).any (fun c => c.kind == .primary cols) = true) ∨
  ∃ n ∈ l.idxs, (t.idx n).any (fun x => x.unique && x.cols == (cols.map fun c => .column c false) &&
    x.pred == []) = true

instance (inline : Bool) (l : Names) (t : Tbl) (cols : List Str) :
    Decidable (EarlyCheck inline l t cols) := by
  unfold EarlyCheck; infer_instance

theorem early_of {inline : Bool} {l : Names} {t : Tbl} {cols : List Str}
    (h : EarlyCheck inline l t cols) : EarlyKey inline t cols := by
  rcases h with ⟨h, n, _, h2⟩ | ⟨n, _, h2⟩
  · cases e : t.con n with
    | none => rw [e] at h2; cases h2
    | some c =>
      rw [e, Option.any_some] at h2
      exact .inl ⟨h, n, c, e, eq_of_beq h2⟩
  · cases e : t.idx n with
    | none => rw [e] at h2; cases h2
    | some x =>
      rw [e, Option.any_some, Bool.and_eq_true, Bool.and_eq_true] at h2
      exact .inr ⟨n, x, e, h2.1.1, eq_of_beq h2.1.2, eq_of_beq h2.2⟩

/-- Foreign keys into schemas of a list have early keys. -/
def laterCheck (d : Dialect) (kw : List Str) (c : Catalog) (s : Schema) (b : List Schema) : Prop :=
  ∀ t ∈ s.tables, ∀ f ∈ t.constraints,
    match kindOf d c.currentSchema f with
    | .foreign _ ref => b.any (fun x => x.schemaName == (key ref.table).1) = true →
      ∀ u ∈ ((dbOf d kw c).table (key ref.table)).toList,
        EarlyCheck (decide (d = .mysql ∨ d = .sqlserver)) (names c) u ref.cols
    | _ => True

instance (d : Dialect) (kw : List Str) (c : Catalog) (s : Schema) (b : List Schema) :
    Decidable (laterCheck d kw c s b) := by
  unfold laterCheck
  have (k : ConKind) : Decidable (match k with
    | .foreign _ ref => b.any (fun x => x.schemaName == (key ref.table).1) = true →
      ∀ u ∈ ((dbOf d kw c).table (key ref.table)).toList,
        EarlyCheck (decide (d = .mysql ∨ d = .sqlserver)) (names c) u ref.cols
    | _ => True) := by
    cases k <;> infer_instance
  infer_instance

/-- The conditions of `Ordered`. -/
def orderedCheck (d : Dialect) (kw : List Str) (c : Catalog) : List Schema → Prop
  | [] => True
  | s :: b => laterCheck d kw c s b ∧ orderedCheck d kw c b

instance orderedDec (d : Dialect) (kw : List Str) (c : Catalog) :
    (l : List Schema) → Decidable (orderedCheck d kw c l)
  | [] => .isTrue trivial
  | s :: b =>
    have := orderedDec d kw c b
    inferInstanceAs (Decidable (laterCheck d kw c s b ∧ orderedCheck d kw c b))

theorem ordered_of {d : Dialect} {kw : List Str} {c : Catalog} (h : orderedCheck d kw c c.schemas) :
    Ordered d kw c := by
  have key : ∀ (a : List Schema) s b l, l = a ++ s :: b → orderedCheck d kw c l → laterCheck d kw c s b := by
    intro a
    induction a with
    | nil => intro s b l e h; subst e; exact h.1
    | cons x a ih => intro s b l e h; subst e; exact ih s b _ rfl h.2
  intro a s b e t ht f hf cs ref hk hx u hu
  have := key a s b _ e h t ht f hf
  rw [hk] at this
  refine early_of (this ?_ u (by rw [hu]; simp))
  obtain ⟨x, h1, h2⟩ := hx
  exact List.any_eq_true.2 ⟨x, h1, beq_iff_eq.2 h2⟩

instance (d : Dialect) (kw : List Str) (cur : Str) (x : Index) (s : Str) (n : Name) :
    Decidable (∃ y, indexMeans d kw cur x = some y ∧ y.name = s ∧ y.table = some n) :=
  decidable_of_iff ((indexMeans d kw cur x).any (fun y => decide (y.name = s ∧ y.table = some n)) = true)
    (by
      cases indexMeans d kw cur x with
      | none => simp
      | some y => simp)

instance (d : Dialect) (kw : List Str) (cur coll : Str) (t : Table) :
    Decidable (TableDump d kw cur coll t) :=
  decidable_of_iff ((t.ignore = false ∧ t.isVirtual = false) ∧ (∀ x ∈ t.columns, x.ignore = false) ∧
    (∀ x ∈ t.constraints, x.ignore = false ∧ x.tableName = t.tableName ∧
      x.constraintType ∈ [b!"PRIMARY KEY", b!"UNIQUE", b!"FOREIGN KEY", b!"CHECK", b!"EXCLUDE"]) ∧
    TableText d cur coll t ∧ ('\n' ∉ t.tableSchema ∧ '\n' ∉ t.tableName) ∧
    ∀ x ∈ t.indexes, (x.sql = [] → IndexOk d false x) ∧ ∃ y, indexMeans d kw cur x = some y ∧
      y.name = x.indexName ∧ y.table = some (fullName cur t.tableSchema t.tableName))
    ⟨fun ⟨a1, a2, a3, a4, a5, a6⟩ => ⟨a1, a2, a3, a4, a5, a6⟩,
      fun ⟨a1, a2, a3, a4, a5, a6⟩ => ⟨a1, a2, a3, a4, a5, a6⟩⟩

instance (d : Dialect) (kw : List Str) (p : Str → Prop) [DecidablePred p] (c : Catalog) :
    Decidable (Dumpable d kw p c) :=
  decidable_of_iff (Ok c ∧
    (∀ s ∈ c.schemas, s.ignore = false ∧ s.schemaName ≠ [] ∧ p s.schemaName) ∧
    ∀ s ∈ c.schemas, ∀ t ∈ s.tables, TableDump d kw c.currentSchema c.defaultCollation t)
    ⟨fun ⟨a1, a2, a3⟩ => ⟨a1, a2, a3⟩, fun ⟨a1, a2, a3⟩ => ⟨a1, a2, a3⟩⟩

instance (c : Catalog) : Decidable (NoTypes c) :=
  decidable_of_iff (c.extensions = [] ∧ ∀ s ∈ c.schemas, s.enums.isEmpty = true ∧ s.domains.isEmpty = true)
    (by unfold NoTypes; simp)

/-! ## Databases of MySQL -/

/-- What a foreign key references exists and is a key. -/
def MyTargetCheck (l : Names) (db : Db) (cols : List Str) (ref : Ref) : Prop :=
  cols.length = ref.cols.length ∧ (db.table (key ref.table)).any (fun r =>
    ref.cols.all (fun x => (r.col x).isSome) &&
    (l.cons.any (fun n => (r.con n).any fun c => c.kind == .primary ref.cols || c.kind == .unique ref.cols) ||
    l.idxs.any fun n => (r.idx n).any fun x =>
      x.unique && x.cols == ref.cols.map fun c => .column c false)) = true

instance (l : Names) (db : Db) (cols : List Str) (ref : Ref) :
    Decidable (MyTargetCheck l db cols ref) := by
  unfold MyTargetCheck; infer_instance

theorem any_some_of {α : Type} {o : Option α} {p : α → Bool} (h : o.any p = true) :
    ∃ x, o = some x ∧ p x = true := by
  cases o with
  | none => cases h
  | some x => exact ⟨x, rfl, h⟩

theorem myTarget_of {l : Names} {db : Db} {cols : List Str} {ref : Ref}
    (h : MyTargetCheck l db cols ref) : db.Target cols ref := by
  obtain ⟨h1, h2⟩ := h
  obtain ⟨r, hr, h3⟩ := any_some_of h2
  rw [Bool.and_eq_true, Bool.or_eq_true, List.all_eq_true, List.any_eq_true, List.any_eq_true] at h3
  refine ⟨h1, r, hr, h3.1, ?_⟩
  rcases h3.2 with ⟨n, _, hn⟩ | ⟨n, _, hn⟩
  · obtain ⟨c, hc, h4⟩ := any_some_of hn
    rw [Bool.or_eq_true, beq_iff_eq, beq_iff_eq] at h4
    exact .inl ⟨n, c, hc, h4⟩
  · obtain ⟨x, hx, h4⟩ := any_some_of hn
    rw [Bool.and_eq_true, beq_iff_eq] at h4
    exact .inr ⟨n, x, hx, h4⟩

/-- A column of an index exists. -/
def idxColCheck (t : Tbl) : IdxCol → Bool
  | .column n _ => (t.col n).isSome
  | _ => true

/-- The conditions of `Db.Consistent`; `cols`: columns, of which every table has one. -/
def MyCheck (l : Names) (cols : List Str) (db : Db) : Prop :=
  (∀ k ∈ l.keys, (db.table k).all (fun t => db.schema k.1 && cols.any (fun n => (t.col n).isSome)) = true) ∧
  (∀ q ∈ allCons l db, ∀ x ∈ EngineSpec.ConKind.cols q.2.2.kind, hasCol db q.1 x = true) ∧
  (∀ q ∈ allIdxs l db, (db.table q.1).all (fun t => q.2.2.cols.all (idxColCheck t)) = true) ∧
  (∀ q ∈ allCons l db, ∀ r ∈ allIdxs l db, q.1 = r.1 → q.2.1 = r.2.1 → isKey q.2.2 = false) ∧
  (∀ f ∈ allForeign l db, MyTargetCheck l db f.2.2.1 f.2.2.2) ∧
  ∀ f ∈ allForeign l db, ∀ g ∈ allForeign l db, f.1.1 = g.1.1 → f.2.1 = g.2.1 → f.1.2 = g.1.2

instance (l : Names) (cols : List Str) (db : Db) : Decidable (MyCheck l cols db) := by
  unfold MyCheck; infer_instance

theorem my_consistent_of {l : Names} {cols : List Str} {db : Db} (hl : Listed l db)
    (h : MyCheck l cols db) : db.Consistent := by
  obtain ⟨h1, h2, h3, h4, h5, h6⟩ := h
  refine ⟨?_, ?_, ?_, ?_⟩
  · intro k t hk
    have := h1 k (hl.keys k t hk)
    rw [hk, Option.all_some, Bool.and_eq_true] at this
    exact this.1
  · intro k t hk
    refine ⟨?_, ?_, ?_, ?_⟩
    · have := h1 k (hl.keys k t hk)
      rw [hk, Option.all_some, Bool.and_eq_true, List.any_eq_true] at this
      obtain ⟨n, _, hn⟩ := this.2
      exact ⟨n, hn⟩
    · intro n c hn x hx
      exact (hasCol_iff hk).1 (h2 _ (mem_allCons hl hk hn) x hx)
    · intro n x hn y d hy
      have := h3 _ (mem_allIdxs hl hk hn)
      dsimp only at this
      rw [hk, Option.all_some, List.all_eq_true] at this
      exact this _ hy
    · intro n c x hn hx
      exact h4 _ (mem_allCons hl hk hn) _ (mem_allIdxs hl hk hx) rfl rfl
  · intro k t n c cs ref hk hn hc
    exact myTarget_of (h5 _ (mem_allForeign hl ⟨t, c, hk, hn, hc⟩))
  · intro s a b t u n c d cs ref cs' ref' ht hu hn hm hc hd
    exact h6 _ (mem_allForeign hl ⟨t, c, ht, hn, hc⟩) _ (mem_allForeign hl ⟨u, d, hu, hm, hd⟩) rfl rfl

end DumpSpec
