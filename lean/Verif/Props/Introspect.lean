import Verif.Lemmas.IntrospectMark

/-!
# What introspection makes of what the database reports
-/

namespace Sqddl.Introspect
open IntrospectSpec

/-! ## The rows of a query -/

theorem readRows_ok {α β : Type} {scan : α → Option β} {rows : List (Option α)} {xs : List β} :
    readRows scan rows = .ok xs ↔ ∃ rs : List α, rows = rs.map some ∧ rs.map scan = xs.map some := by
  induction rows generalizing xs with
  | nil =>
    simp only [readRows]
    constructor
    · intro e; cases e; exact ⟨[], rfl, rfl⟩
    · rintro ⟨rs, e1, e2⟩
      cases rs with
      | nil =>
        cases xs with
        | nil => rfl
        | cons _ _ => cases e2
      | cons _ _ => cases e1
  | cons r rest ih =>
    cases r with
    | none =>
      simp only [readRows]
      constructor
      · intro e; cases e
      · rintro ⟨rs, e1, -⟩
        cases rs <;> cases e1
    | some r =>
      simp only [readRows]
      cases hs : scan r with
      | none =>
        simp only [Res.of, Res.bind]
        constructor
        · intro e; cases e
        · rintro ⟨rs, e1, e2⟩
          cases rs with
          | nil => cases e1
          | cons r' rs =>
            obtain ⟨e3, e4⟩ := List.cons.inj e1
            cases Option.some.inj e3
            cases xs with
            | nil => cases e2
            | cons x xs =>
              obtain ⟨e5, -⟩ := List.cons.inj e2
              rw [hs] at e5
              cases e5
      | some x =>
        simp only [Res.of, Res.bind]
        constructor
        · cases hrec : readRows scan rest with
          | panic => intro e; cases e
          | err => intro e; cases e
          | ok ys =>
            intro e
            cases e
            obtain ⟨rs, e1, e2⟩ := ih.1 hrec
            exact ⟨r :: rs, by rw [e1]; rfl, by simp [hs, e2]⟩
        · rintro ⟨rs, e1, e2⟩
          cases rs with
          | nil => cases e1
          | cons r' rs =>
            obtain ⟨e3, e4⟩ := List.cons.inj e1
            cases Option.some.inj e3
            cases xs with
            | nil => cases e2
            | cons y ys =>
              obtain ⟨e5, e6⟩ := List.cons.inj e2
              rw [hs] at e5
              cases Option.some.inj e5
              rw [ih.2 ⟨rs, e4, e6⟩]

/-- **A query whose rows cannot all be read is not taken for a shorter one**: the objects it gives
are those of all its rows, and no error came after them. -/
theorem query_ok {α β : Type} {scan : α → Option β} {a : Option (Answer α)} {xs : List β} :
    query scan a = .ok xs ↔
      ∃ rs : List α, a = some { rows := rs.map some, failed := false } ∧ rs.map scan = xs.map some := by
  cases a with
  | none => simp [query]
  | some a =>
    obtain ⟨rows, failed⟩ := a
    simp only [query]
    constructor
    · cases hr : readRows scan rows with
      | panic => intro e; cases e
      | err => intro e; cases e
      | ok ys =>
        cases failed with
        | true => intro e; cases e
        | false =>
          intro e
          cases e
          obtain ⟨rs, rfl, e2⟩ := readRows_ok.1 hr
          exact ⟨rs, rfl, e2⟩
    · rintro ⟨rs, e1, e2⟩
      cases e1
      rw [readRows_ok.2 ⟨rs, rfl, e2⟩]
      rfl

example : query (fun n => some (n + 1)) (some { rows := [some 1, some 2] }) = .ok [2, 3] ∧
    query (fun n => some (n + 1)) (some { rows := [some 1, none] }) = .err ∧
    query (fun n => some (n + 1)) (some { rows := [some 1], failed := true }) = .err := by decide

theorem mem_of_scan {α β : Type} {scan : α → Option β} {rs : List α} {xs : List β} {x : β}
    (h : rs.map scan = xs.map some) (hx : x ∈ xs) : ∃ r ∈ rs, scan r = some x := by
  have : some x ∈ rs.map scan := h ▸ List.mem_map.2 ⟨x, hx, rfl⟩
  obtain ⟨r, hr, e⟩ := List.mem_map.1 this
  exact ⟨r, hr, e⟩

/-! ## What is asked -/

/-- If the question is asked the answer is the list, and otherwise the list is empty. -/
def asked {α : Type} (b : Bool) (get : Res (List α)) (xs : List α) : Prop :=
  if b then get = .ok xs else xs = []

/-- The database reports the objects and the extensions. -/
structure Reads (isFloat : Str → Bool) (d : Dialect) (types : List Str) (s : Server) (o : Reported)
    (exts : List Str) : Prop where
  extensions : asked (includeObjectType types b!"EXTENSIONS") (getExtensions d s) exts
  enums : asked (includeObjectType types b!"ENUMS") (getEnums d s) o.enums
  domains : asked (includeObjectType types b!"DOMAINS") (getDomains d s) o.domains
  routines : asked (includeObjectType types b!"ROUTINES") (getRoutines d s) o.routines
  views : asked (includeObjectType types b!"VIEWS") (getViews d s) o.views
  tables : asked (includeObjectType types b!"TABLES") (getTables d s) o.tables
  columns : asked (includeObjectType types b!"TABLES") (getColumns isFloat d s) o.columns
  constraints : asked (includeObjectType types b!"TABLES") (getConstraints d s) o.constraints
  indexes : asked (includeObjectType types b!"TABLES" || includeObjectType types b!"VIEWS")
    (getIndexes d s) o.indexes
  triggers : asked (includeObjectType types b!"TABLES" || includeObjectType types b!"VIEWS")
    (getTriggers d s) o.triggers

/-- The database says who it is. -/
structure Header (d : Dialect) (s : Server) (nums : List Int) (name cur coll : Str) : Prop where
  version : getVersionNums d s.version = .ok nums
  name : getName d s.databaseName = .ok name
  currentSchema : getName d s.currentSchema = .ok cur
  collation : getName d s.defaultCollation = .ok coll

theorem scanTable_bare (d : Dialect) (r : Table) : (scanTable d r).ignore = false ∧
    (scanTable d r).columns = [] ∧ (scanTable d r).constraints = [] ∧
    (scanTable d r).indexes = [] ∧ (scanTable d r).triggers = [] := by
  cases d <;> exact ⟨rfl, rfl, rfl, rfl, rfl⟩

theorem scanView_bare (d : Dialect) (r : ViewRow) : (scanView d r).ignore = false ∧
    (scanView d r).indexes = [] ∧ (scanView d r).triggers = [] := by
  cases d <;> exact ⟨rfl, rfl, rfl⟩

theorem scanColumn_bare {isFloat : Str → Bool} {d : Dialect} {r x : Column}
    (h : scanColumn isFloat d r = some x) : x.ignore = false := by
  cases d
  · cases h; rfl
  · simp only [scanColumn, postgresColumn, Option.map_eq_some_iff] at h
    obtain ⟨_, -, rfl⟩ := h; rfl
  · simp only [scanColumn, mysqlColumn, Option.map_eq_some_iff] at h
    obtain ⟨_, -, rfl⟩ := h; rfl
  · simp only [scanColumn, sqlserverColumn, Option.map_eq_some_iff] at h
    obtain ⟨_, -, rfl⟩ := h; rfl
  · cases h; rfl
  · cases h; rfl

theorem Reads.bare {isFloat : Str → Bool} {d : Dialect} {types : List Str} {s : Server}
    {o : Reported} {exts : List Str} (h : Reads isFloat d types s o exts) : Bare o := by
  refine ⟨fun t ht => ?_, fun v hv => ?_, fun x hx => ?_⟩
  · have h1 := h.tables
    simp only [asked] at h1
    split at h1
    · simp only [getTables] at h1
      split at h1
      · obtain ⟨rs, -, e⟩ := query_ok.1 h1
        obtain ⟨r, -, e2⟩ := mem_of_scan e ht
        cases e2
        exact scanTable_bare d r
      · cases h1
    · rw [h1] at ht; cases ht
  · have h1 := h.views
    simp only [asked] at h1
    split at h1
    · simp only [getViews] at h1
      split at h1
      · obtain ⟨rs, -, e⟩ := query_ok.1 h1
        obtain ⟨r, -, e2⟩ := mem_of_scan e hv
        cases e2
        exact scanView_bare d r
      · cases h1
    · rw [h1] at hv; cases hv
  · have h1 := h.columns
    simp only [asked] at h1
    split at h1
    · simp only [getColumns] at h1
      split at h1
      · obtain ⟨rs, -, e⟩ := query_ok.1 h1
        obtain ⟨r, -, e2⟩ := mem_of_scan e hx
        exact scanColumn_bare e2
      · cases h1
    · rw [h1] at hx; cases hx

/-! ## Adding everything -/

/-- The catalog holds the objects; apart from its schemas it is `cat1`. -/
def Stage (cat1 : Catalog) (o : Reported) (p : Catalog × CatalogCache) : Prop :=
  ∃ ss, p.1 = { cat1 with schemas := ss } ∧ St o ss p.2

theorem addAll_ok {α : Type} {b : Bool} {get : Res (List α)} {cat1 : Catalog}
    {add : CatalogCache → Catalog → α → Option (Catalog × CatalogCache)} {xs : List α}
    {O : List α → Reported} (ha : asked b get xs)
    (hstep : ∀ done x rest cat c, done ++ x :: rest = xs → St (O done) cat.schemas c →
      ∃ ss c', add c cat x = some ({ cat with schemas := ss }, c') ∧ St (O (done ++ [x])) ss c')
    {p : Catalog × CatalogCache} (h : Stage cat1 (O []) p) :
    ∃ p', onlyIf b (addAll get add) p = .ok p' ∧ Stage cat1 (O xs) p' := by
  simp only [asked] at ha
  simp only [onlyIf]
  split
  · rename_i hb
    rw [if_pos hb] at ha
    obtain ⟨cat', c', e, hP⟩ := writeList_ok (add := add) (xs := xs)
      (P := fun done cat c => Stage cat1 (O done) (cat, c))
      (fun done x rest cat c hd hP => by
        obtain ⟨ss, e, hst⟩ := hP
        dsimp only at e hst
        obtain ⟨ss', c', e2, hst'⟩ := hstep done x rest cat c hd (by rw [e]; exact hst)
        exact ⟨_, c', e2, ss', by rw [e], hst'⟩) h
    exact ⟨(cat', c'), by simp [addAll, ha, Res.bind, e, Res.of], hP⟩
  · rename_i hb
    rw [if_neg hb] at ha
    subst ha
    exact ⟨p, rfl, h⟩

theorem stage_empty {cat1 : Catalog} (hs : cat1.schemas = []) (exts : List Str) (v : Bool) :
    Stage { cat1 with extensions := exts, extensionsValid := v } {}
      ({ cat1 with extensions := exts, extensionsValid := v }, newCatalogCache cat1) := by
  refine ⟨cat1.schemas, rfl, ⟨[], by simp, by simp [schemaNames], by rw [hs]; rfl, ?_⟩, ?_⟩
  · intro n i
    simp [newCatalogCache, hs, positions, PosMap.get]
  · constructor <;> simp [newCatalogCache, hs, PosMap.get]

/-- **What the database reports ends up in the catalog, once and in its place**: after
`WriteCatalog` into an empty catalog the schemas are those that have objects, each once, and each
holds exactly its objects, in the order of the rows; the columns, constraints, indexes and triggers
of a table or view are those that name it; and a column is marked as primary key, unique or foreign
key if its table has such a constraint of only this column.  Partial: the names have to identify
the objects, the constraints have to belong to tables that are reported, and their columns have to
be known.  Without these objects are lost or the program panics: see the refutations below. -/
theorem writeCatalog_holds_partial {isFloat : Str → Bool} {d : Dialect} {types : List Str} {s : Server}
    {o : Reported} {exts : List Str} {nums : List Int} {name cur coll : Str} {cat0 : Catalog}
    (hr : Reads isFloat d types s o exts) (hh : Header d s nums name cur coll)
    (hn : Named o) (hp : Placed o) (hk : KeysKnown o)
    (hs : cat0.schemas = []) (he : cat0.extensions = []) :
    ∃ cat, writeCatalog isFloat d types s cat0 = .ok cat ∧ Holds o cat.schemas ∧
      cat.extensions = exts ∧ cat.versionNums = nums ∧ cat.catalogName = name ∧
      cat.currentSchema = cur ∧ cat.defaultCollation = coll ∧
      cat.dialect = (if cat0.dialect = [] then dialectName d else cat0.dialect) := by
  have hb := hr.bare
  let cat1 : Catalog :=
    { (if cat0.dialect = [] then { cat0 with dialect := dialectName d } else cat0) with
      versionNums := nums, catalogName := name, currentSchema := cur
      defaultCollation := coll, defaultCollationValid := true }
  have hhead : writeHeader d s cat0 = .ok cat1 := by
    simp only [writeHeader, hh.version, hh.name, hh.currentSchema, hh.collation, Res.bind]
    rfl
  have hs1 : cat1.schemas = [] := by
    show (if cat0.dialect = [] then { cat0 with dialect := dialectName d } else cat0).schemas = []
    split <;> exact hs
  have he1 : cat1.extensions = [] := by
    show (if cat0.dialect = [] then { cat0 with dialect := dialectName d } else cat0).extensions = []
    split <;> exact he
  obtain ⟨v, hext⟩ : ∃ v, onlyIf (includeObjectType types b!"EXTENSIONS") (writeExtensions d s)
      (cat1, newCatalogCache cat1) =
      .ok ({ cat1 with extensions := exts, extensionsValid := v }, newCatalogCache cat1) := by
    have h1 := hr.extensions
    simp only [asked] at h1
    simp only [onlyIf]
    split
    · rename_i hi
      rw [if_pos hi] at h1
      simp only [writeExtensions, h1, Res.bind]
      split
      · rename_i hx
        subst hx
        refine ⟨cat1.extensionsValid, ?_⟩
        rw [← he1]
      · refine ⟨true, ?_⟩
        rw [he1, List.nil_append]
    · rename_i hi
      rw [if_neg hi] at h1
      subst h1
      refine ⟨cat1.extensionsValid, ?_⟩
      rw [← he1]
  have s0 := stage_empty hs1 exts v
  obtain ⟨p1, e1, s1⟩ := addAll_ok (add := addEnum) (O := fun xs => { enums := xs })
    hr.enums (fun done x rest cat c hd hst => addEnum_ok hst (key_fresh hn.enums hd)) s0
  obtain ⟨p2, e2, s2⟩ := addAll_ok (add := addDomain)
    (O := fun xs => { enums := o.enums, domains := xs })
    hr.domains (fun done x rest cat c hd hst => addDomain_ok hst (key_fresh hn.domains hd)) s1
  obtain ⟨p3, e3, s3⟩ := addAll_ok (add := addRoutine)
    (O := fun xs => { enums := o.enums, domains := o.domains, routines := xs })
    hr.routines (fun done x rest cat c hd hst => addRoutine_ok hst (key_fresh hn.routines hd)) s2
  obtain ⟨p4, e4, s4⟩ := addAll_ok (add := addView)
    (O := fun xs => { enums := o.enums, domains := o.domains, routines := o.routines, views := xs })
    hr.views (fun done x rest cat c hd hst => addView_ok hst (key_fresh hn.views hd)
      (hb.views x (by rw [← hd]; simp)).2 rfl rfl) s3
  obtain ⟨p5, e5, s5⟩ := addAll_ok (add := addTable)
    (O := fun xs => { enums := o.enums, domains := o.domains, routines := o.routines
                      views := o.views, tables := xs })
    hr.tables (fun done x rest cat c hd hst => addTable_ok hst (key_fresh hn.tables hd)
      (hb.tables x (by rw [← hd]; simp)).2 rfl rfl rfl rfl) s4
  obtain ⟨p6, e6, s6⟩ := addAll_ok (add := addColumn)
    (O := fun xs => { enums := o.enums, domains := o.domains, routines := o.routines
                      views := o.views, tables := o.tables, columns := xs })
    hr.columns (fun done x rest cat c hd hst => addColumn_ok hst
      ⟨hb.tables, hb.views, fun y hy => hb.columns y (by rw [← hd]; exact List.mem_append_left _ hy)⟩
      (key_fresh hn.columns hd)) s5
  obtain ⟨p7, e7, s7⟩ := addAll_ok (add := addConstraint)
    (O := fun xs => { enums := o.enums, domains := o.domains, routines := o.routines
                      views := o.views, tables := o.tables, columns := o.columns
                      constraints := xs })
    hr.constraints (fun done x rest cat c hd hst => addConstraint_ok hst
      ⟨hb.tables, hb.views, hb.columns⟩ (fun hx => by
        have := hn.constraints
        rw [← hd, List.filter_append, List.filter_cons_of_pos (by simpa using hx)] at this
        exact key_fresh this rfl)
      (hp x (by rw [← hd]; simp))) s6
  obtain ⟨p8, e8, s8⟩ := addAll_ok (add := addIndex)
    (O := fun xs => { enums := o.enums, domains := o.domains, routines := o.routines
                      views := o.views, tables := o.tables, columns := o.columns
                      constraints := o.constraints, indexes := xs })
    hr.indexes (fun done x rest cat c hd hst => addIndex_ok hst
      ⟨hb.tables, hb.views, hb.columns⟩ (key_fresh hn.indexes hd)) s7
  obtain ⟨p9, e9, s9⟩ := addAll_ok (add := addTrigger)
    (O := fun xs => { enums := o.enums, domains := o.domains, routines := o.routines
                      views := o.views, tables := o.tables, columns := o.columns
                      constraints := o.constraints, indexes := o.indexes, triggers := xs })
    hr.triggers (fun done x rest cat c hd hst => addTrigger_ok hst
      ⟨hb.tables, hb.views, hb.columns⟩ (key_fresh hn.triggers hd)) s8
  obtain ⟨ss, hcat, hst⟩ := s9
  obtain ⟨ss', hm, hH⟩ := markCatalog_ok (cat := p9.1) (by rw [hcat]; exact hst) hb hk
  refine ⟨{ p9.1 with schemas := ss' }, ?_, hH, ?_⟩
  · simp only [writeCatalog, hhead, hext, e1, e2, e3, e4, e5, e6, e7, e8, e9, Res.bind, hm, Res.of]
  · rw [hcat]
    refine ⟨rfl, rfl, rfl, rfl, rfl, ?_⟩
    show (if cat0.dialect = [] then { cat0 with dialect := dialectName d } else cat0).dialect = _
    split <;> rfl

/-! ## Errors -/

/-- All rows of the query were read. -/
def Complete {α : Type} (a : Option (Answer α)) : Prop :=
  ∃ rs : List α, a = some { rows := rs.map some, failed := false }

theorem complete_of_query {α β : Type} {scan : α → Option β} {a : Option (Answer α)} {xs : List β}
    (h : query scan a = .ok xs) : Complete a := by
  obtain ⟨rs, e, -⟩ := query_ok.1 h
  exact ⟨rs, e⟩

theorem Res.bind_ok {α β : Type} {r : Res α} {f : α → Res β} {b : β} (h : r.bind f = .ok b) :
    ∃ a, r = .ok a ∧ f a = .ok b := by
  cases r with
  | panic => cases h
  | err => cases h
  | ok a => exact ⟨a, rfl, h⟩

theorem asked_of_ok {α : Type} {b : Bool} {get : Res (List α)}
    {add : CatalogCache → Catalog → α → Option (Catalog × CatalogCache)}
    {p p' : Catalog × CatalogCache} (h : onlyIf b (addAll get add) p = .ok p') :
    ∃ xs, asked b get xs := by
  simp only [onlyIf] at h
  cases b with
  | false => exact ⟨[], rfl⟩
  | true =>
    simp only [if_true, addAll] at h
    obtain ⟨xs, e, -⟩ := Res.bind_ok h
    exact ⟨xs, e⟩

/-- If `WriteCatalog` succeeds then every question was answered. -/
theorem writeCatalog_reads {isFloat : Str → Bool} {d : Dialect} {types : List Str} {s : Server}
    {cat0 cat : Catalog} (h : writeCatalog isFloat d types s cat0 = .ok cat) :
    (∃ o exts, Reads isFloat d types s o exts) ∧
      ∃ nums name cur coll, Header d s nums name cur coll := by
  simp only [writeCatalog] at h
  obtain ⟨cat1, h0, h⟩ := Res.bind_ok h
  obtain ⟨p0, h1, h⟩ := Res.bind_ok h
  obtain ⟨p1, e1, h⟩ := Res.bind_ok h
  obtain ⟨p2, e2, h⟩ := Res.bind_ok h
  obtain ⟨p3, e3, h⟩ := Res.bind_ok h
  obtain ⟨p4, e4, h⟩ := Res.bind_ok h
  obtain ⟨p5, e5, h⟩ := Res.bind_ok h
  obtain ⟨p6, e6, h⟩ := Res.bind_ok h
  obtain ⟨p7, e7, h⟩ := Res.bind_ok h
  obtain ⟨p8, e8, h⟩ := Res.bind_ok h
  obtain ⟨p9, e9, h⟩ := Res.bind_ok h
  obtain ⟨x1, a1⟩ := asked_of_ok e1
  obtain ⟨x2, a2⟩ := asked_of_ok e2
  obtain ⟨x3, a3⟩ := asked_of_ok e3
  obtain ⟨x4, a4⟩ := asked_of_ok e4
  obtain ⟨x5, a5⟩ := asked_of_ok e5
  obtain ⟨x6, a6⟩ := asked_of_ok e6
  obtain ⟨x7, a7⟩ := asked_of_ok e7
  obtain ⟨x8, a8⟩ := asked_of_ok e8
  obtain ⟨x9, a9⟩ := asked_of_ok e9
  have hx : ∃ exts, asked (includeObjectType types b!"EXTENSIONS") (getExtensions d s) exts := by
    simp only [onlyIf] at h1
    cases hb : includeObjectType types b!"EXTENSIONS" with
    | false => exact ⟨[], rfl⟩
    | true =>
      rw [hb] at h1
      simp only [if_true, writeExtensions] at h1
      obtain ⟨xs, e, -⟩ := Res.bind_ok h1
      exact ⟨xs, e⟩
  obtain ⟨exts, a0⟩ := hx
  refine ⟨⟨{ enums := x1, domains := x2, routines := x3, views := x4, tables := x5, columns := x6
             constraints := x7, indexes := x8, triggers := x9 }, exts,
    ⟨a0, a1, a2, a3, a4, a5, a6, a7, a8, a9⟩⟩, ?_⟩
  simp only [writeHeader] at h0
  obtain ⟨nums, n1, h0⟩ := Res.bind_ok h0
  obtain ⟨name, n2, h0⟩ := Res.bind_ok h0
  obtain ⟨cur, n3, h0⟩ := Res.bind_ok h0
  obtain ⟨coll, n4, h0⟩ := Res.bind_ok h0
  exact ⟨nums, name, cur, coll, n1, n2, n3, n4⟩

/-- **An answer that is cut off is an error, not a smaller database**: if `WriteCatalog` succeeds
then every row of every query that was asked could be read and no error ended them.  Partial: not
for the triggers, where an error after some rows is not noticed (`triggers_refuted`). -/
theorem writeCatalog_complete_partial {isFloat : Str → Bool} {d : Dialect} {types : List Str}
    {s : Server} {cat0 cat : Catalog} (h : writeCatalog isFloat d types s cat0 = .ok cat) :
    (includeObjectType types b!"TABLES" = true →
      Complete s.tables ∧ Complete s.columns ∧ Complete s.constraints ∧ Complete s.indexes) ∧
    (includeObjectType types b!"VIEWS" = true → Complete s.views ∧ Complete s.indexes) ∧
    (includeObjectType types b!"ROUTINES" = true → d ≠ .sqlite → Complete s.routines) ∧
    (d = .postgres → (includeObjectType types b!"ENUMS" = true → Complete s.enums) ∧
      (includeObjectType types b!"DOMAINS" = true → Complete s.domains) ∧
      (includeObjectType types b!"EXTENSIONS" = true → Complete s.extensions)) := by
  obtain ⟨⟨o, exts, hr⟩, -⟩ := writeCatalog_reads h
  obtain ⟨a0, a1, a2, a3, a4, a5, a6, a7, a8, -⟩ := hr
  have hix : (includeObjectType types b!"TABLES" || includeObjectType types b!"VIEWS") = true →
      Complete s.indexes := by
    intro hb
    simp only [asked, hb, if_true, getIndexes] at a8
    split at a8
    · exact complete_of_query a8
    · cases a8
  refine ⟨fun hb => ⟨?_, ?_, ?_, hix (by simp [hb])⟩, fun hb => ⟨?_, hix (by simp [hb])⟩,
    fun hb hd => ?_, fun hd => ⟨fun hb => ?_, fun hb => ?_, fun hb => ?_⟩⟩
  · simp only [asked, hb, if_true, getTables] at a5
    split at a5
    · exact complete_of_query a5
    · cases a5
  · simp only [asked, hb, if_true, getColumns] at a6
    split at a6
    · exact complete_of_query a6
    · cases a6
  · simp only [asked, hb, if_true, getConstraints] at a7
    split at a7
    · exact complete_of_query a7
    · cases a7
  · simp only [asked, hb, if_true, getViews] at a4
    split at a4
    · exact complete_of_query a4
    · cases a4
  · simp only [asked, hb, if_true, getRoutines, hd, if_false] at a3
    split at a3
    · exact complete_of_query a3
    · cases a3
  · simp only [asked, hb, if_true, getEnums, hd] at a1
    exact complete_of_query a1
  · simp only [asked, hb, if_true, getDomains, hd] at a2
    exact complete_of_query a2
  · simp only [asked, hb, if_true, getExtensions, hd] at a0
    exact complete_of_query a0

/-! ## An example -/

namespace Demo

/-- The rows of a Postgres database with two schemas. -/
def server : Server :=
  { version := some b!"14.5 (Debian 14.5-1)"
    databaseName := some b!"shop"
    currentSchema := some b!"public"
    defaultCollation := some b!"C"
    extensions := some { rows := [some b!"citext"] }
    enums := some { rows := [some { enumSchema := b!"public", enumName := b!"mood"
                                    enumLabels := [b!"ok", b!"sad"] }] }
    views := some { rows := [some
      { row := { viewSchema := b!"stats", viewName := b!"daily", isMaterialized := true }
        columns := b!"day|total", columnTypes := b!"date|bigint" }] }
    tables := some { rows := [some { tableSchema := b!"public", tableName := b!"customer" },
                              some { tableSchema := b!"public", tableName := b!"orders" }] }
    columns := some { rows :=
      [some { tableSchema := b!"public", tableName := b!"customer", columnName := b!"id"
              columnType := b!"integer" },
       some { tableSchema := b!"public", tableName := b!"orders", columnName := b!"id"
              columnType := b!"integer" },
       some { tableSchema := b!"public", tableName := b!"orders", columnName := b!"customer"
              columnType := b!"integer" }] }
    constraints := some { rows :=
      [some { row := { tableSchema := b!"public", tableName := b!"customer"
                       constraintName := b!"customer_pkey", constraintType := PRIMARY_KEY
                       columns := [b!"id"] } },
       some { row := { tableSchema := b!"public", tableName := b!"orders"
                       constraintName := b!"orders_fkey", constraintType := FOREIGN_KEY
                       columns := [b!"customer"], referencesSchema := b!"public"
                       referencesTable := b!"customer", referencesColumns := [b!"id"]
                       updateRule := b!"CASCADE" } },
       some { row := { tableSchema := b!"public", tableName := b!"orders"
                       constraintName := b!"orders_key", constraintType := UNIQUE
                       columns := [b!"id", b!"customer"] } }] }
    indexes := some { rows :=
      [some { row := { tableSchema := b!"stats", tableName := b!"daily", indexName := b!"daily_day"
                       isViewIndex := true, columns := [b!"day", b!"total"] }
              numKeyColumns := 1 }] } }

/-- What it reports. -/
def reported : Reported :=
  { enums := [{ enumSchema := b!"public", enumName := b!"mood", enumLabels := [b!"ok", b!"sad"] }]
    views := [{ viewSchema := b!"stats", viewName := b!"daily", isMaterialized := true
                columns := [b!"day", b!"total"], columnTypes := [b!"date", b!"bigint"] }]
    tables := [{ tableSchema := b!"public", tableName := b!"customer" },
               { tableSchema := b!"public", tableName := b!"orders" }]
    columns :=
      [{ tableSchema := b!"public", tableName := b!"customer", columnName := b!"id"
         columnType := b!"int" },
       { tableSchema := b!"public", tableName := b!"orders", columnName := b!"id"
         columnType := b!"int" },
       { tableSchema := b!"public", tableName := b!"orders", columnName := b!"customer"
         columnType := b!"int" }]
    constraints :=
      [{ tableSchema := b!"public", tableName := b!"customer"
         constraintName := b!"customer_pkey", constraintType := PRIMARY_KEY, columns := [b!"id"] },
       { tableSchema := b!"public", tableName := b!"orders"
         constraintName := b!"orders_fkey", constraintType := FOREIGN_KEY
         columns := [b!"customer"], referencesSchema := b!"public"
         referencesTable := b!"customer", referencesColumns := [b!"id"]
         updateRule := b!"CASCADE" },
       { tableSchema := b!"public", tableName := b!"orders"
         constraintName := b!"orders_key", constraintType := UNIQUE
         columns := [b!"id", b!"customer"] }]
    indexes :=
      [{ tableSchema := b!"stats", tableName := b!"daily", indexName := b!"daily_day"
         isViewIndex := true, columns := [b!"day"], includeColumns := [b!"total"] }] }

theorem reads : Reads (fun _ => false) .postgres [] server reported [b!"citext"] := by
  constructor <;> (simp only [asked, includeObjectType, List.isEmpty_nil, Bool.true_or, if_true]
                   decide +kernel)

theorem header : Header .postgres server [14, 5] b!"shop" b!"public" b!"C" := by
  constructor <;> decide +kernel

theorem named : Named reported := by
  constructor <;> decide +kernel

theorem placed : Placed reported := by
  unfold Placed; decide +kernel

theorem keysKnown : KeysKnown reported := by
  intro k hk n hn _
  simp only [reported, List.mem_cons, List.not_mem_nil, or_false] at hk
  rcases hk with rfl | rfl | rfl
  · cases hn; decide +kernel
  · cases hn; decide +kernel
  · cases hn

end Demo

example : ∃ cat, writeCatalog (fun _ => false) .postgres [] Demo.server {} = .ok cat ∧
    Holds Demo.reported cat.schemas ∧ cat.extensions = [b!"citext"] ∧ cat.versionNums = [14, 5] := by
  obtain ⟨cat, h1, h2, h3, h4, -⟩ := writeCatalog_holds_partial Demo.reads Demo.header Demo.named
    Demo.placed Demo.keysKnown (cat0 := {}) rfl rfl
  exact ⟨cat, h1, h2, h3, h4⟩

/-- The schemas that are written. -/
def Demo.written : List Schema :=
  match writeCatalog (fun _ => false) .postgres [] Demo.server {} with
  | .ok cat => cat.schemas
  | _ => []

/-- The same, computed: what is in which schema. -/
example : Demo.written.map (fun s => s.schemaName) = [b!"public", b!"stats"] ∧
    Demo.written.map (fun s => s.enums.length) = [1, 0] ∧
    Demo.written.map (fun s => s.views.map fun v => v.indexes.length) = [[], [1]] ∧
    Demo.written.map (fun s => s.tables.map fun t => t.columns.map fun x => x.columnName) =
      [[[b!"id"], [b!"id", b!"customer"]], []] := by
  refine ⟨?_, ?_, ?_, ?_⟩ <;> decide +kernel

/-- The column that is a foreign key of its own says so, the columns of the unique key of two
columns do not. -/
example : (Demo.written.flatMap (·.tables)).map (fun t => t.columns.map fun x =>
      (x.isPrimaryKey, x.isUnique)) = [[(true, false)], [(false, false), (false, false)]] ∧
    (Demo.written.flatMap (·.tables)).map (fun t => t.columns.map fun x =>
      (x.referencesTable, x.updateRule)) =
      [[([], [])], [([], []), (b!"customer", b!"CASCADE")]] := by
  refine ⟨?_, ?_⟩ <;> decide +kernel

/-- Stopped in the middle of the columns. -/
example : writeCatalog (fun _ => false) .postgres []
    { Demo.server with columns := some { rows := [], failed := true } } {} = .err := by
  decide +kernel

/-! ## Refutations -/

/-- **Refuted: introspecting any database ends with its catalog.**  A SQLite foreign key may name
its table only, `REFERENCES parent`: the row has no referenced columns, and reading the first of
them panics. -/
theorem shortForeignKey_refuted :
    writeCatalog (fun _ => false) .sqlite []
      { version := some b!"3.39.4"
        tables := some { rows := [some { tableName := b!"parent" }, some { tableName := b!"child" }] }
        columns := some { rows :=
          [some { tableName := b!"parent", columnName := b!"id" },
           some { tableName := b!"child", columnName := b!"parent_id" }] }
        constraints := some { rows :=
          [some { row := { tableName := b!"child", constraintType := FOREIGN_KEY
                           referencesTable := b!"parent" }
                  columns := b!"parent_id" }] } } {} = .panic := by decide +kernel

/-- **Refuted: introspecting any database ends with its catalog.**  A table with a primary key whose
columns are not reported (a shadow table of a SQLite R-Tree, which the constraints are asked for but
not the tables) is a nil column, and setting it panics. -/
theorem shadowTable_refuted :
    writeCatalog (fun _ => false) .sqlite []
      { version := some b!"3.39.4"
        tables := some { rows := [some { tableName := b!"area" }] }
        columns := some { rows := [some { tableName := b!"area", columnName := b!"id" }] }
        constraints := some { rows :=
          [some { row := { tableName := b!"area_node", constraintType := PRIMARY_KEY }
                  columns := b!"nodeno" }] } } {} = .panic := by decide +kernel

/-- **Refuted: every table of the catalog was reported.**  A constraint creates the table it names,
without columns. -/
theorem emptyTable_refuted :
    (match writeCatalog (fun _ => false) .sqlite []
      { version := some b!"3.39.4"
        tables := some { rows := [some { tableName := b!"area" }] }
        constraints := some { rows :=
          [some { row := { tableName := b!"area_node", constraintType := PRIMARY_KEY }
                  columns := b!"a,b" }] } } {} with
      | .ok cat => cat.schemas.map fun s => s.tables.map fun t => (t.tableName, t.columns.length)
      | _ => []) = [[(b!"area", 0), (b!"area_node", 0)]] := by decide +kernel

/-- **Refuted: every routine that is reported is in the catalog.**  On MySQL a function and a
procedure may have the same name: the second replaces the first. -/
theorem sameRoutine_refuted :
    (match writeCatalog (fun _ => false) .mysql []
      { version := some b!"8.0.32"
        routines := some { rows :=
          [some { row := { routineSchema := b!"shop", routineName := b!"total"
                           routineType := b!"FUNCTION" } },
           some { row := { routineSchema := b!"shop", routineName := b!"total"
                           routineType := b!"PROCEDURE" } }] } } {} with
      | .ok cat => cat.schemas.map fun s => s.routines.map fun r => (r.routineName, r.routineType)
      | _ => []) = [[(b!"total", b!"PROCEDURE")]] := by decide +kernel

/-- **Refuted: every constraint that is reported is in the catalog.**  On MySQL a unique key and a
foreign key of a table may have the same name: the second replaces the first. -/
theorem sameConstraint_refuted :
    (match writeCatalog (fun _ => false) .mysql []
      { version := some b!"8.0.32"
        tables := some { rows := [some { tableSchema := b!"shop", tableName := b!"orders" }] }
        columns := some { rows :=
          [some { tableSchema := b!"shop", tableName := b!"orders", columnName := b!"customer"
                  columnType := b!"int" }] }
        constraints := some { rows :=
          [some { row := { tableSchema := b!"shop", tableName := b!"orders"
                           constraintName := b!"customer", constraintType := FOREIGN_KEY
                           referencesTable := b!"customer" }
                  columns := b!"customer", referencesColumns := b!"id" },
           some { row := { tableSchema := b!"shop", tableName := b!"orders"
                           constraintName := b!"customer", constraintType := UNIQUE }
                  columns := b!"customer" }] } } {} with
      | .ok cat => cat.schemas.map fun s => s.tables.map fun t =>
          t.constraints.map fun k => (k.constraintName, k.constraintType)
      | _ => []) = [[[(b!"customer", UNIQUE)]]] := by decide +kernel

/-- **Refuted: an answer that is cut off is an error.**  Not if it is the answer of the triggers:
the triggers that were not read are missing from the catalog. -/
theorem triggers_refuted :
    (match writeCatalog (fun _ => false) .sqlite []
      { version := some b!"3.39.4"
        tables := some { rows := [some { tableName := b!"area" }] }
        triggers := some { rows := [some { row := { tableName := b!"area", triggerName := b!"a" } }]
                           failed := true } } {} with
      | .ok cat => cat.schemas.map fun s => s.tables.map fun t => t.triggers.map (·.triggerName)
      | _ => []) = [[[b!"a"]]] := by decide +kernel

end Sqddl.Introspect
