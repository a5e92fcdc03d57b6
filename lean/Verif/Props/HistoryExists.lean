import Verif.Model.HistoryExists
import Verif.Spec.HistoryExists
import Verif.Props.HistoryTextSample

/-!
# C105: the history table is created if it is not there
-/

namespace CatalogQuery
open Go SqlSpec Sqddl
open Sqddl.Migrate (existsText historyTableExists ensureHistoryTableExists createText)
open HistorySql (Exact)
open SubsetSpec (Row)

/-! ## The query -/

def isSupported (d : Dialect) : Bool := d = .sqlite ∨ d = .postgres ∨ d = .mysql ∨ d = .sqlserver

/-- The words for the kinds of objects. -/
def kindWords : List Str := [b!"table", b!"view", b!"index", b!"r", b!"p", b!"v", b!"i", b!"S", b!"BASE TABLE", b!"VIEW"]

/-- What is to be compared by the query besides the names of tables. -/
def Db.words (db : Db) : List Str := kindWords ++ db.current :: (db.schemas.map (·.1) ++ db.schemas.map (·.2))

def sqliteQuery : Query := ⟨⟨(none, b!"sqlite_schema"), none⟩, none,
    [(.column none b!"type", .text b!"table"), (.column none b!"tbl_name", .param)]⟩

theorem sqlite_query : (existsText .sqlite).bind (queryOf .sqlite) = some sqliteQuery := by decide +kernel

def postgresQuery : Query := ⟨⟨(none, b!"pg_class"), some b!"tables"⟩,
      some (⟨(none, b!"pg_namespace"), some b!"schemas"⟩, .column (some b!"schemas") b!"oid",
        .column (some b!"tables") b!"relnamespace"),
      [(.column (some b!"tables") b!"relkind", .text b!"r"),
        (.column (some b!"schemas") b!"nspname", .call b!"current_schema" none),
        (.column (some b!"tables") b!"relname", .param)]⟩

theorem postgres_query : (existsText .postgres).bind (queryOf .postgres) = some postgresQuery := by decide +kernel

def mysqlQuery : Query := ⟨⟨(some b!"information_schema", b!"tables"), none⟩, none,
    [(.column none b!"table_type", .text b!"BASE TABLE"), (.column none b!"table_schema", .call b!"database" none),
      (.column none b!"table_name", .param)]⟩

theorem mysql_query : (existsText .mysql).bind (queryOf .mysql) = some mysqlQuery := by decide +kernel

def sqlserverQuery : Query := ⟨⟨(some b!"sys", b!"tables"), none⟩, none,
    [(.call b!"schema_name" (some b!"schema_id"), .call b!"schema_name" none), (.column none b!"name", .param)]⟩

theorem sqlserver_query : (existsText .sqlserver).bind (queryOf .sqlserver) = some sqlserverQuery := by decide +kernel

/-! ## Its answer -/

theorem lookup_mem {l : List (Str × Str)} {a b : Str} (h : l.lookup a = some b) : (a, b) ∈ l := by
  induction l with
  | nil => cases h
  | cons p l ih =>
    obtain ⟨x, y⟩ := p
    rw [List.lookup_cons] at h
    by_cases e : a = x
    · subst e
      simp at h
      simp [h]
    · rw [show (a == x) = false by simpa using e] at h
      exact List.mem_cons_of_mem _ (ih h)

theorem lookup_iff {l : List (Str × Str)} (h : (l.map (·.1)).Nodup) (a b : Str) : l.lookup a = some b ↔ (a, b) ∈ l := by
  refine ⟨lookup_mem, fun hm => ?_⟩
  induction l with
  | nil => cases hm
  | cons p l ih =>
    obtain ⟨x, y⟩ := p
    rw [List.map_cons, List.nodup_cons] at h
    rw [List.lookup_cons]
    rcases List.mem_cons.1 hm with e | hm'
    · cases e
      simp
    · have : a ≠ x := by
        rintro rfl
        exact h.1 (List.mem_map.2 ⟨_, hm', rfl⟩)
      rw [show (a == x) = false by simpa using this]
      exact ih h.2 hm'

theorem answer_iff {eqv : Str → Str → Bool} {d : Dialect} {db : Db} {param : Str} {q : Query} {scs : List Scope}
    (h : q.scopes eqv d db param = some scs) :
    ∃ b, q.answer eqv d db param = some b ∧ (b = true ↔ ∃ sc ∈ scs, ∀ c ∈ q.conds, holds eqv d db param sc c = true) := by
  refine ⟨_, by rw [Query.answer, h, Option.map_some], ?_⟩
  simp only [List.any_eq_true, List.all_eq_true]

/-- C105.  The query tells whether there is a table with this name in the current schema. -/
theorem exists_answer (eqv : Str → Str → Bool) (d : Dialect) (hd : isSupported d = true) (db : Db) (hk : db.Ok)
    (hx : Exact eqv db.words) (table : Str) :
    ∃ b, historyTableExists d (ask eqv d db) table = some b ∧ (b = true ↔ db.HasTable eqv d table) := by
  have hcur : db.current ∈ db.words := by simp [Db.words]
  have hnum : ∀ s ∈ db.schemas, s.1 ∈ db.words := fun s hs => by
    simp only [Db.words, List.mem_append, List.mem_cons, List.mem_map]
    exact .inr (.inr (.inl ⟨s, hs, rfl⟩))
  have hname : ∀ s ∈ db.schemas, s.2 ∈ db.words := fun s hs => by
    simp only [Db.words, List.mem_append, List.mem_cons, List.mem_map]
    exact .inr (.inr (.inr ⟨s, hs, rfl⟩))
  have hword : ∀ w ∈ kindWords, w ∈ db.words := fun w hw => by simp [Db.words, hw]
  have hkind : ∀ a ∈ kindWords, ∀ b ∈ kindWords, eqv a b = decide (a = b) := fun a ha b hb => by
    rw [Bool.eq_iff_iff, decide_eq_true_eq]
    exact hx a (hword a ha) b (hword b hb)
  have hbind : historyTableExists d (ask eqv d db) table =
      ((existsText d).bind (queryOf d)).bind (Query.answer eqv d db table) := by
    unfold historyTableExists
    rw [Option.bind_assoc]
    rfl
  rw [hbind]
  cases d with
  | sqlite =>
    rw [sqlite_query, Option.bind_some]
    obtain ⟨b, h1, h2⟩ := answer_iff (eqv := eqv) (d := .sqlite) (db := db) (param := table) (q := sqliteQuery) rfl
    refine ⟨b, h1, h2.trans ?_⟩
    simp only [List.mem_map, List.mem_filterMap]
    constructor
    · rintro ⟨sc, ⟨row, ⟨o, ho, e⟩, rfl⟩, hc⟩
      refine ⟨o, ho, ?_⟩
      have hc1 := hc _ (List.mem_cons_self ..)
      have hc2 := hc _ (List.mem_cons_of_mem _ (List.mem_cons_self ..))
      cases hk : o.kind <;> rw [hk] at e <;> cases e
      · exact ⟨rfl, .inl rfl, hc2⟩
      · have : eqv b!"view" b!"table" = true := hc1
        rw [hkind _ (by decide) _ (by decide)] at this
        exact absurd this (by decide)
      · have : eqv b!"index" b!"table" = true := hc1
        rw [hkind _ (by decide) _ (by decide)] at this
        exact absurd this (by decide)
    · rintro ⟨o, ho, hk, -, he⟩
      refine ⟨_, ⟨_, ⟨o, ho, by rw [hk]⟩, rfl⟩, ?_⟩
      intro c hc
      simp only [sqliteQuery, List.mem_cons, List.not_mem_nil, or_false] at hc
      rcases hc with rfl | rfl
      · show eqv b!"table" b!"table" = true
        rw [hkind _ (by decide) _ (by decide)]
        decide
      · exact he
  | mysql =>
    rw [mysql_query, Option.bind_some]
    obtain ⟨b, h1, h2⟩ := answer_iff (eqv := eqv) (d := .mysql) (db := db) (param := table) (q := mysqlQuery) rfl
    refine ⟨b, h1, h2.trans ?_⟩
    simp only [List.mem_map, List.mem_filterMap]
    constructor
    · rintro ⟨sc, ⟨row, ⟨o, ho, e⟩, rfl⟩, hc⟩
      refine ⟨o, ho, ?_⟩
      obtain ⟨s, hs, e⟩ := Option.bind_eq_some_iff.1 e
      have hc1 := hc _ (List.mem_cons_self ..)
      have hc2 := hc _ (List.mem_cons_of_mem _ (List.mem_cons_self ..))
      have hc3 := hc _ (List.mem_cons_of_mem _ (List.mem_cons_of_mem _ (List.mem_cons_self ..)))
      cases hk : o.kind <;> rw [hk] at e <;> cases e
      · refine ⟨rfl, .inr ?_, hc3⟩
        have : eqv s db.current = true := hc2
        rw [hx s (hname _ (lookup_mem hs)) _ hcur] at this
        rw [hs, this]
      · have : eqv b!"VIEW" b!"BASE TABLE" = true := hc1
        rw [hkind _ (by decide) _ (by decide)] at this
        exact absurd this (by decide)
    · rintro ⟨o, ho, hk, hh, he⟩
      have hh := hh.resolve_left (by decide)
      refine ⟨_, ⟨_, ⟨o, ho, by rw [hk, hh]; rfl⟩, rfl⟩, ?_⟩
      intro c hc
      simp only [mysqlQuery, List.mem_cons, List.not_mem_nil, or_false] at hc
      rcases hc with rfl | rfl | rfl
      · show eqv b!"BASE TABLE" b!"BASE TABLE" = true
        rw [hkind _ (by decide) _ (by decide)]
        decide
      · exact (hx _ hcur _ hcur).2 rfl
      · exact he
  | sqlserver =>
    rw [sqlserver_query, Option.bind_some]
    obtain ⟨b, h1, h2⟩ := answer_iff (eqv := eqv) (d := .sqlserver) (db := db) (param := table) (q := sqlserverQuery) rfl
    refine ⟨b, h1, h2.trans ?_⟩
    simp only [List.mem_map, List.mem_filterMap]
    constructor
    · rintro ⟨sc, ⟨row, ⟨o, ho, e⟩, rfl⟩, hc⟩
      refine ⟨o, ho, ?_⟩
      have hc1 := hc _ (List.mem_cons_self ..)
      have hc2 := hc _ (List.mem_cons_of_mem _ (List.mem_cons_self ..))
      by_cases hk : o.kind = .table
      · rw [if_pos hk] at e
        cases e
        refine ⟨hk, .inr ?_, hc2⟩
        have hc1 : (match db.schemaName o.schema, some db.current with
          | some a, some b => eqv a b
          | _, _ => false) = true := hc1
        cases hs : db.schemaName o.schema with
        | none => rw [hs] at hc1; cases hc1
        | some s =>
          rw [hs] at hc1
          rw [(hx s (hname _ (lookup_mem hs)) _ hcur).1 hc1]
      · rw [if_neg hk] at e; cases e
    · rintro ⟨o, ho, hk, hh, he⟩
      have hh := hh.resolve_left (by decide)
      refine ⟨_, ⟨_, ⟨o, ho, by rw [if_pos hk]⟩, rfl⟩, ?_⟩
      intro c hc
      simp only [sqlserverQuery, List.mem_cons, List.not_mem_nil, or_false] at hc
      rcases hc with rfl | rfl
      · show (match db.schemaName o.schema, some db.current with
          | some a, some b => eqv a b
          | _, _ => false) = true
        rw [hh]
        exact (hx _ hcur _ hcur).2 rfl
      · exact he
  | postgres =>
    rw [postgres_query, Option.bind_some]
    obtain ⟨b, h1, h2⟩ := answer_iff (eqv := eqv) (d := .postgres) (db := db) (param := table) (q := postgresQuery) rfl
    refine ⟨b, h1, h2.trans ?_⟩
    have hon : ∀ o ∈ db.objects, o.schema ∈ db.words := fun o ho => by
      obtain ⟨n, hn⟩ := hk.objects o ho
      exact hnum _ hn
    simp only [List.mem_flatMap, List.mem_filter, List.mem_map, List.mem_filterMap]
    constructor
    · rintro ⟨sc, ⟨row, ⟨o, ho, e⟩, ⟨row', ⟨s, hs, rfl⟩, rfl⟩, hj⟩, hc⟩
      refine ⟨o, ho, ?_⟩
      obtain ⟨k, hkd, rfl⟩ := Option.map_eq_some_iff.1 e
      have hj : eqv s.1 o.schema = true := hj
      have hc1 : eqv k b!"r" = true := hc _ (List.mem_cons_self ..)
      have hc2 : eqv s.2 db.current = true := hc _ (List.mem_cons_of_mem _ (List.mem_cons_self ..))
      have hc3 : eqv o.name table = true :=
        hc _ (List.mem_cons_of_mem _ (List.mem_cons_of_mem _ (List.mem_cons_self ..)))
      have hj := (hx _ (hnum s hs) _ (hon o ho)).1 hj
      have hc2 := (hx _ (hname s hs) _ hcur).1 hc2
      have htab : o.kind = .table := by
        cases hk : o.kind <;> rw [hk] at hkd <;> cases hkd
        all_goals
          rw [hkind _ (by decide) _ (by decide)] at hc1
          exact absurd hc1 (by decide)
      refine ⟨htab, .inr ((lookup_iff hk.numbers _ _).2 ?_), hc3⟩
      rw [← hj, ← hc2]
      exact hs
    · rintro ⟨o, ho, hkd, hh, he⟩
      have hh := (lookup_iff hk.numbers _ _).1 (hh.resolve_left (by decide))
      refine ⟨_, ⟨_, ⟨o, ho, by rw [hkd]; rfl⟩, ⟨_, ⟨_, hh, rfl⟩, rfl⟩, ?_⟩, ?_⟩
      · show eqv o.schema o.schema = true
        exact (hx _ (hon o ho) _ (hon o ho)).2 rfl
      · intro c hc
        simp only [postgresQuery, List.mem_cons, List.not_mem_nil, or_false] at hc
        rcases hc with rfl | rfl | rfl
        · show eqv b!"r" b!"r" = true
          rw [hkind _ (by decide) _ (by decide)]
          decide
        · exact (hx _ hcur _ hcur).2 rfl
        · exact he
  | oracle => cases hd
  | other => cases hd

/-! ## The creation -/

/-- The name of the constraint. -/
def pkey : Str := b!"sqddl_filename_pkey"

/-- The databases in which that name is one of the schema. -/
def named (d : Dialect) : Bool := d = .postgres ∨ d = .sqlserver

theorem keyNames_of (d : Dialect) (items : List DdlText.Item) (h : HistorySql.Describes items (HistorySql.keyName d)) :
    keyNames items = (HistorySql.keyName d).toList := by
  have e : keyNames items = (items.filterMap fun x => match x with
      | .col _ => none
      | .con c => some c).filterMap fun c => match c.kind with
        | .primary _ => c.name
        | _ => none := by
    unfold keyNames
    clear h
    induction items with
    | nil => rfl
    | cons x items ih =>
      cases x with
      | col c => simp only [List.filterMap_cons, ih]
      | con c =>
        obtain ⟨n, k, i1, i2, i3⟩ := c
        cases k <;> simp only [List.filterMap_cons, ih]
  have hk : (items.filterMap fun x => match x with
      | .col _ => none
      | .con c => some c) = _ := h.key
  rw [e, hk]
  cases d <;> rfl

/-- What CREATE TABLE adds. -/
def added (d : Dialect) (s table : Str) : List Obj :=
  ⟨s, table, .table, table⟩ :: (if d = .postgres then [⟨s, pkey, .index, table⟩]
    else if d = .sqlserver then [⟨s, pkey, .constraint, table⟩] else [])

theorem exec_create (same : Str → Str → Bool) (d : Dialect) (db : Db) (table : Str) (ht : PlainName d table) {s : Str}
    (hs : db.home = some s) :
    exec same d (keywords d) db (createText d table) =
      if db.taken same d table ∨ (named d = true ∧ (db.taken same d pkey ∨ same table pkey = true)) then none
      else some { db with objects := db.objects ++ added d s table } := by
  obtain ⟨items, e, hd⟩ := HistorySql.create_table d table ht
  have hko : (⟨s, table, .table, table⟩ : Obj) :: keyObjects d s table items = added d s table := by
    unfold keyObjects added
    rw [keyNames_of d items hd]
    cases d <;> rfl
  unfold exec
  rw [e, Option.bind_some]
  unfold Db.create
  dsimp only
  rw [hs, Option.bind_some, hko]
  by_cases h : db.taken same d table ∨ (named d = true ∧ (db.taken same d pkey ∨ same table pkey = true))
  · rw [if_pos h, if_neg]
    rintro ⟨h1, h2⟩
    rcases h with h | ⟨hn, h⟩
    · exact h1 _ (List.mem_cons_self ..) h
    · have hm : ∃ o : Obj, added d s table = [⟨s, table, .table, table⟩, o] ∧ o.name = pkey := by
        cases d <;> first | exact ⟨_, rfl, rfl⟩ | cases hn
      obtain ⟨o, ho, hp⟩ := hm
      rw [ho] at h1 h2
      rcases h with h | h
      · exact h1 o (by simp) (hp ▸ h)
      · have h2 : same table o.name = false := by simpa using h2
        rw [hp, h] at h2
        cases h2
  · rw [if_neg h, if_pos]
    have h0 : ¬ db.taken same d table := fun x => h (.inl x)
    cases hn : named d with
    | false =>
      have hm : added d s table = [⟨s, table, .table, table⟩] := by
        cases d <;> first | rfl | cases hn
      rw [hm]
      simpa using h0
    | true =>
      have hm : ∃ o : Obj, added d s table = [⟨s, table, .table, table⟩, o] ∧ o.name = pkey := by
        cases d <;> first | exact ⟨_, rfl, rfl⟩ | cases hn
      obtain ⟨o, ho, hp⟩ := hm
      rw [ho]
      have h1 : ¬ db.taken same d pkey := fun x => h (.inr ⟨hn, .inl x⟩)
      have h2 : same table pkey = false := by
        cases hx : same table pkey with
        | false => rfl
        | true => exact absurd (.inr ⟨hn, .inr hx⟩) h
      refine ⟨?_, by simp [hp, h2]⟩
      intro x hx
      simp only [List.mem_cons, List.not_mem_nil, or_false] at hx
      rcases hx with rfl | rfl
      · exact h0
      · rw [hp]; exact h1

/-- The function of the model with this database. -/
def ensure (eqv same : Str → Str → Bool) (d : Dialect) (table : Str) (db : Db) : Option Db :=
  ensureHistoryTableExists d (ask eqv d) (exec same d (keywords d)) table db

theorem home_spec {db : Db} (hk : db.Ok) {s : Str} (hs : db.home = some s) :
    (s, db.current) ∈ db.schemas ∧ db.schemaName s = some db.current := by
  unfold Db.home at hs
  obtain ⟨p, hp, rfl⟩ := Option.map_eq_some_iff.1 hs
  have h1 := List.mem_of_find?_eq_some hp
  have h2 : p.2 = db.current := by simpa using List.find?_some hp
  have : (p.1, db.current) ∈ db.schemas := by rw [← h2]; exact h1
  exact ⟨this, (lookup_iff hk.numbers _ _).2 this⟩

/-- C105.  The command goes on with an existing table, or one that is created; it is an error exactly if there
is no such table and a name that is needed is taken by another object. -/
theorem ensure_iff (eqv same : Str → Str → Bool) (d : Dialect) (hd : isSupported d = true) (db : Db) (hk : db.Ok)
    (hx : Exact eqv db.words) (hh : db.home.isSome) (table : Str) (ht : PlainName d table) :
    (db.HasTable eqv d table → ensure eqv same d table db = some db) ∧
    (¬ db.HasTable eqv d table →
      (ensure eqv same d table db = none ↔
        db.taken same d table ∨ (named d = true ∧ (db.taken same d pkey ∨ same table pkey = true))) ∧
      ∀ db', ensure eqv same d table db = some db' → ∃ s, db.home = some s ∧
        db' = { db with objects := db.objects ++ added d s table }) := by
  obtain ⟨b, hb, hiff⟩ := exists_answer eqv d hd db hk hx table
  obtain ⟨s, hs⟩ := Option.isSome_iff_exists.1 hh
  have he : ensure eqv same d table db = if b then some db else exec same d (keywords d) db (createText d table) := by
    unfold ensure ensureHistoryTableExists
    rw [hb, Option.bind_some]
  refine ⟨fun h => by rw [he, if_pos (hiff.2 h)], fun h => ?_⟩
  rw [he, if_neg (fun x => h (hiff.1 x)), exec_create same d db table ht hs]
  refine ⟨?_, ?_⟩
  · by_cases hc : db.taken same d table ∨ (named d = true ∧ (db.taken same d pkey ∨ same table pkey = true))
    · simp [hc]
    · rw [if_neg hc]
      simp [hc]
  · intro db' h
    by_cases hc : db.taken same d table ∨ (named d = true ∧ (db.taken same d pkey ∨ same table pkey = true))
    · rw [if_pos hc] at h; cases h
    · rw [if_neg hc] at h
      cases h
      exact ⟨s, hs, rfl⟩

/-- C105.  If nothing but a table that the query finds has the name, and the name of the constraint is free,
then the table is there afterwards with everything that was there before, and doing it again changes nothing.
(Partial: see `other_object_refuted`.) -/
theorem ensure_partial (eqv same : Str → Str → Bool) (d : Dialect) (hd : isSupported d = true) (db : Db) (hk : db.Ok)
    (hx : Exact eqv db.words) (hh : db.home.isSome) (table : Str) (ht : PlainName d table) (hself : eqv table table = true)
    (hagree : ∀ o ∈ db.objects, db.here d o → shares d o.kind = true → same o.name table = true →
      o.kind = .table ∧ eqv o.name table = true)
    (hpk : named d = true → same table pkey = false ∧ (db.taken same d pkey → db.HasTable eqv d table)) :
    ∃ db', ensure eqv same d table db = some db' ∧ db'.HasTable eqv d table ∧ (∀ o ∈ db.objects, o ∈ db'.objects) ∧
      (db.HasTable eqv d table → db' = db) ∧ ensure eqv same d table db' = some db' := by
  obtain ⟨h1, h2⟩ := ensure_iff eqv same d hd db hk hx hh table ht
  by_cases h : db.HasTable eqv d table
  · exact ⟨db, h1 h, h, fun _ ho => ho, fun _ => rfl, h1 h⟩
  · obtain ⟨h3, h4⟩ := h2 h
    cases he : ensure eqv same d table db with
    | none =>
      exfalso
      rcases h3.1 he with ⟨o, ho, e1, e2, e3⟩ | ⟨hn, hp | hp⟩
      · obtain ⟨a, b⟩ := hagree o ho e1 e2 e3
        exact h ⟨o, ho, a, e1, b⟩
      · exact h ((hpk hn).2 hp)
      · rw [(hpk hn).1] at hp
        cases hp
    | some db' =>
      obtain ⟨s, hs, hdb⟩ := h4 db' he
      obtain ⟨m1, m2⟩ := home_spec hk hs
      have hhas : db'.HasTable eqv d table := by
        rw [hdb]
        exact ⟨⟨s, table, .table, table⟩, by simp [added], rfl, .inr m2, hself⟩
      have hk' : db'.Ok := by
        rw [hdb]
        refine ⟨hk.numbers, fun o ho => ?_⟩
        rcases List.mem_append.1 ho with ho | ho
        · exact hk.objects o ho
        · have : o.schema = s := by
            unfold added at ho
            rcases List.mem_cons.1 ho with rfl | ho
            · rfl
            · by_cases c1 : d = .postgres
              · rw [if_pos c1] at ho
                rw [List.mem_singleton.1 ho]
              · rw [if_neg c1] at ho
                by_cases c2 : d = .sqlserver
                · rw [if_pos c2] at ho
                  rw [List.mem_singleton.1 ho]
                · rw [if_neg c2] at ho
                  cases ho
          exact ⟨_, this ▸ m1⟩
      have hx' : Exact eqv db'.words := by rw [hdb]; exact hx
      have hh' : db'.home.isSome := by rw [hdb]; exact hh
      refine ⟨db', rfl, hhas, ?_, fun x => absurd x h, ?_⟩
      · intro o ho
        rw [hdb]
        exact List.mem_append_left _ ho
      · exact (ensure_iff eqv same d hd db' hk' hx' hh' table ht).1 hhas

/-- C105.  The rule does not hold if another object has the name: then every command that records a file
fails.  In SQLite the object may be the history table itself, as `History` and `history` are the same name
but the query tells them apart; in Postgres it may be a partitioned table. -/
theorem other_object_refuted (eqv same : Str → Str → Bool) (d : Dialect) (hd : isSupported d = true) (db : Db)
    (hk : db.Ok) (hx : Exact eqv db.words) (hh : db.home.isSome) (table : Str) (ht : PlainName d table) (o : Obj)
    (ho : o ∈ db.objects) (h1 : db.here d o) (h2 : shares d o.kind = true) (h3 : same o.name table = true)
    (hno : ∀ x ∈ db.objects, db.here d x → x.kind = .table → eqv x.name table = false) :
    ensure eqv same d table db = none := by
  have h : ¬ db.HasTable eqv d table := by
    rintro ⟨x, hx, e1, e2, e3⟩
    rw [hno x hx e2 e1] at e3
    cases e3
  exact ((ensure_iff eqv same d hd db hk hx hh table ht).2 h).1.2 (.inl ⟨o, ho, h1, h2, h3⟩)

/-! ## Examples -/

def beq (a b : Str) : Bool := decide (a = b)

/-- Names of objects without regard to case. -/
def fold (a b : Str) : Bool := decide (toLower a = toLower b)

/-- Two schemas, a table of the same name in the other one, and a view. -/
def sample : Db :=
  ⟨[(b!"10", b!"main"), (b!"20", b!"app")],
   [⟨b!"20", b!"users", .table, b!"users"⟩, ⟨b!"10", b!"recent", .view, b!"recent"⟩,
    ⟨b!"10", b!"users_idx", .index, b!"users"⟩], b!"main"⟩

theorem sample_ok : sample.Ok := ⟨by decide, by
  intro o ho
  simp only [sample, List.mem_cons, List.not_mem_nil, or_false] at ho
  rcases ho with rfl | rfl | rfl
  · exact ⟨b!"app", by decide⟩
  · exact ⟨b!"main", by decide⟩
  · exact ⟨b!"main", by decide⟩⟩

theorem beq_exact (names : List Str) : Exact beq names := by
  intro a _ b _
  simp [beq]

/-- `exists_answer`, `ensure_iff` and `ensure_partial`: the table is found after it was created. -/
example (d : Dialect) (hd : d ∈ [Dialect.postgres, .mysql, .sqlserver]) :
    PlainName d b!"Order" ∧ sample.home.isSome ∧ named .postgres = true ∧ ¬ sample.taken fold d pkey ∧
    historyTableExists d (ask beq d sample) b!"users" = some false ∧
    ((ensure beq fold d b!"Order" sample).map fun db => (db.objects.length, historyTableExists d (ask beq d db) b!"Order")) =
      some (if d = .mysql then 4 else 5, some true) := by
  revert d; decide +kernel

/-- The hypotheses of `ensure_partial` hold for it. -/
example (d : Dialect) (hd : d ∈ [Dialect.postgres, .mysql, .sqlserver]) :
    ∃ db', ensure beq fold d b!"Order" sample = some db' ∧ db'.HasTable beq d b!"Order" := by
  obtain ⟨db', h1, h2, -⟩ := ensure_partial beq fold d (by revert d; decide) sample sample_ok (beq_exact _)
    (by decide) b!"Order" (by revert d; decide +kernel) (by decide) (by revert d; decide +kernel)
    (fun _ => ⟨by decide +kernel, fun h => absurd h (by revert d; decide +kernel)⟩)
  exact ⟨db', h1, h2⟩

/-- `other_object_refuted` in SQLite: the table was created as `History`. -/
example : ensure beq fold .sqlite b!"history" ⟨[(b!"0", b!"main")], [⟨b!"0", b!"History", .table, b!"History"⟩], b!"main"⟩ =
    none := by decide +kernel

/-- `other_object_refuted` in Postgres: the table is partitioned. -/
example : ensure beq beq .postgres b!"history"
    ⟨[(b!"0", b!"main")], [⟨b!"0", b!"history", .partitioned, b!"history"⟩], b!"main"⟩ = none := by decide +kernel

end CatalogQuery
