import Verif.Spec.SqliteDump
import Verif.Lemmas.DumpText
import Verif.Props.Introspect
import Verif.Props.IntrospectRows

/-!
# The SQL files of a dump of SQLite recreate the definitions of the database (C101)
-/

namespace LiteDump
open Go SqlSpec Sqddl Sqddl.Render DumpParts
open Sqddl.Wipe (qualified buffer)

/-- A text that makes these definitions. -/
def IsScript (s : Str) (es : List Entry) : Prop :=
  ∃ tss : List (List Tok), Reads .sqlite s (tss.flatMap fun ts => ts ++ [.punct ';']) ∧
    (∀ ts ∈ tss, Tok.punct ';' ∉ ts) ∧ tss.mapM (readEntry (keywords .sqlite)) = some es

theorem scripts : Scripts .sqlite IsScript where
  gap := fun s h => ⟨[], h, by simp, rfl⟩
  append := by
    rintro s t a b ⟨xs, r1, n1, m1⟩ ⟨ys, r2, n2, m2⟩
    refine ⟨xs ++ ys, by rw [List.flatMap_append]; exact r1.append r2, ?_,
      by rw [List.mapM_append, m1, m2]; rfl⟩
    intro ts hts
    rcases List.mem_append.1 hts with h | h
    · exact n1 ts h
    · exact n2 ts h

theorem IsScript.run {s : Str} {es : List Entry} (h : IsScript s es) :
    runScript (keywords .sqlite) s = some es := by
  obtain ⟨tss, r, n, m⟩ := h
  unfold runScript
  rw [lex_of_readsP r.readsP, Option.bind_some, statements_flatMap tss n, m]

/-- A definition on lines of its own. -/
theorem definition_script {s : Str} {e : Entry} (h : definition (keywords .sqlite) s = some e) :
    s ≠ [] ∧ IsScript (s ++ b!"\n") [e] := by
  unfold definition at h
  obtain ⟨ts, h1, h2⟩ := Option.bind_eq_some_iff.1 h
  by_cases hc : ts.getLast? = some (.punct ';') ∧ Tok.punct ';' ∉ ts.dropLast
  · rw [if_pos hc] at h2
    have et : ts.dropLast ++ [.punct ';'] = ts := by
      obtain ⟨ys, hy⟩ := List.getLast?_eq_some_iff.1 hc.1
      rw [hy]; simp
    refine ⟨?_, [ts.dropLast], ?_, by simpa using hc.2, by simp [h2]⟩
    · rintro rfl
      cases h1
      exact absurd hc.1 (by simp)
    · simp only [List.flatMap_cons, List.flatMap_nil, List.append_nil]
      rw [et]
      exact reads_of_lex .sqlite _ s (Nat.le_refl _) ts h1
  · rw [if_neg hc] at h2; cases h2

theorem mapM_append_inv {α β : Type} (f : α → Option β) (xs ys : List α) (r : List β)
    (h : (xs ++ ys).mapM f = some r) : ∃ a b, xs.mapM f = some a ∧ ys.mapM f = some b ∧ r = a ++ b := by
  rw [List.mapM_append] at h
  cases h1 : xs.mapM f with
  | none => rw [h1] at h; cases h
  | some a =>
    cases h2 : ys.mapM f with
    | none => rw [h1, h2] at h; cases h
    | some b => rw [h1, h2] at h; exact ⟨a, b, rfl, rfl, by cases h; rfl⟩

/-- The texts of definitions. -/
theorem definitions_pieces {β : Type} (sql : β → Str) (xs : List β) (es : List Entry)
    (h : xs.mapM (fun x => definition (keywords .sqlite) (sql x)) = some es) :
    Pieces IsScript (xs.map fun x => sql x ++ b!"\n") es ∧ ∀ x ∈ xs, sql x ≠ [] := by
  induction xs generalizing es with
  | nil => cases h; exact ⟨.nil, by simp⟩
  | cons x xs ih =>
    obtain ⟨a, b, h1, h2, rfl⟩ := mapM_append_inv _ [x] xs es h
    cases hd : definition (keywords .sqlite) (sql x) with
    | none => simp [hd] at h1
    | some e =>
      simp [hd] at h1; subst h1
      obtain ⟨i1, i2⟩ := ih b h2
      obtain ⟨h3, h4⟩ := definition_script hd
      refine ⟨.cons (by simp) h4 i1, ?_⟩
      intro y hy
      rcases List.mem_cons.1 hy with rfl | hy
      · exact h3
      · exact i2 y hy

theorem definitions_script {β : Type} (sql : β → Str) (xs : List β) (es : List Entry)
    (h : xs.mapM (fun x => definition (keywords .sqlite) (sql x)) = some es) :
    IsScript (xs.flatMap fun x => sql x ++ b!"\n") es := by
  induction xs generalizing es with
  | nil => cases h; exact scripts.gap [] (Reads.nil _)
  | cons x xs ih =>
    obtain ⟨a, b, h1, h2, rfl⟩ := mapM_append_inv _ [x] xs es h
    cases hd : definition (keywords .sqlite) (sql x) with
    | none => simp [hd] at h1
    | some e =>
      simp [hd] at h1; subst h1
      rw [List.flatMap_cons]
      exact scripts.append (definition_script hd).2 (ih b h2)

/-- schema.sql -/
theorem schema_isScript {c : Catalog} {ts xs : List Entry} (hl : Lite c)
    (h : Describes (keywords .sqlite) c ts xs) : IsScript (Dump.dumpSchema .sqlite c) ts := by
  unfold Dump.dumpSchema
  refine Pieces.script scripts ?_
  obtain ⟨h1, h2⟩ := definitions_pieces (·.sql) (tablesOf c) ts h.tables
  have e1 : c.schemas.flatMap (Dump.schemaStmts .sqlite c.currentSchema c.defaultCollation) = [] := by
    rw [List.flatMap_eq_nil_iff]
    intro s hs
    obtain ⟨a1, a2, a3⟩ := hl.schemas s hs
    unfold Dump.schemaStmts
    rw [a1, a2, a3]; rfl
  have e2 : c.schemas.flatMap (Dump.tableStmts .sqlite c.currentSchema c.defaultCollation) =
      (tablesOf c).map fun t => t.sql ++ b!"\n" := by
    unfold tablesOf at h2 ⊢
    generalize c.schemas = ss at h2
    induction ss with
    | nil => rfl
    | cons s ss ih =>
      rw [List.flatMap_cons, List.flatMap_cons, List.map_append, ih fun t ht => h2 t (by simp [ht])]
      congr 1
      unfold Dump.tableStmts
      have hs : ∀ t ∈ s.tables, t.sql ≠ [] := fun t ht => h2 t (by simp [ht])
      rw [List.filter_eq_self.2 (by intro t ht; simp [hs t ht])]
      refine List.map_congr_left fun t ht => ?_
      unfold createTable
      rw [if_pos (hs t ht)]
  rw [hl.extensions, e1, e2]
  exact h1

/-- indexes.sql -/
theorem indexes_isScript {c : Catalog} {ts xs : List Entry}
    (h : Describes (keywords .sqlite) c ts xs)
    (hn : ∀ t ∈ tablesOf c, '\n' ∉ t.tableSchema ∧ '\n' ∉ t.tableName) :
    IsScript (Dump.dumpIndexes .sqlite c) xs := by
  unfold Dump.dumpIndexes
  refine Pieces.script scripts ?_
  have hx := h.indexes
  have e : (c.schemas.flatMap fun s => s.tables.map (Dump.indexBlock .sqlite c.currentSchema)) =
      (tablesOf c).map (Dump.indexBlock .sqlite c.currentSchema) := by
    unfold tablesOf
    rw [List.map_flatMap]
  rw [e]
  unfold indexesOf at hx
  generalize c.currentSchema = cur
  generalize tablesOf c = us at hx hn
  clear h e
  induction us generalizing xs with
  | nil => cases hx; exact .nil
  | cons t us ih =>
    rw [List.flatMap_cons] at hx
    obtain ⟨a, b, h1, h2, rfl⟩ := mapM_append_inv _ _ _ _ hx
    rw [List.map_cons]
    refine Pieces.cons ?_ ?_ (ih h2 fun u hu => hn u (by simp [hu]))
    · unfold Dump.indexBlock Dump.heading
      simp
    · unfold Dump.indexBlock
      rw [show a = [] ++ a from rfl]
      refine scripts.append (scripts.gap _ ?_) ?_
      · have := hn t (by simp)
        unfold Dump.heading
        rw [List.append_assoc (b!"-- ")]
        refine reads_comment _ _ ?_
        by_cases hc : t.tableSchema ≠ [] ∧ t.tableSchema ≠ cur
        · rw [if_pos hc]; simp [this]
        · rw [if_neg hc]; simp [this]
      · obtain ⟨_, h3⟩ := definitions_pieces (·.sql) t.indexes a h1
        have e : t.indexes.flatMap (fun x => createIndex .sqlite cur x false) =
            t.indexes.flatMap fun x => x.sql ++ b!"\n" := by
          rw [List.flatMap_def, List.flatMap_def]
          congr 1
          refine List.map_congr_left fun x hx => ?_
          unfold createIndex
          rw [if_pos (h3 x hx)]
          simp
        rw [e]
        exact definitions_script _ _ _ h1

/-- A sound database can be made definition by definition, the tables first. -/
theorem runs_sound {ts xs : List Entry} (h : Sound (ts ++ xs)) (hk : ∀ e ∈ ts, e.kind ≠ .index)
    (hx : ∀ e ∈ xs, e.kind = .index) : Runs [] (ts ++ xs) (ts ++ xs) := by
  have key : ∀ (q p : List Entry), p ++ q = ts ++ xs → Runs p q (ts ++ xs) := by
    intro q
    induction q with
    | nil => intro p e; rw [List.append_nil] at e; exact e
    | cons e q ih =>
      intro p ep
      refine ⟨⟨?_, ?_⟩, ih (p ++ [e]) (by rw [← ep]; simp)⟩
      · intro x hx'
        have := h.names
        rw [← ep, List.pairwise_append] at this
        exact this.2.2 x hx' e (by simp)
      · intro hi
        obtain ⟨x, h1, h2, h3⟩ := h.tables e (by rw [← ep]; simp) hi
        refine ⟨x, ?_, h2, h3⟩
        -- `x` is one of the tables, and `e` comes after all of them
        have hxt : x ∈ ts := by
          rcases List.mem_append.1 h1 with h1 | h1
          · exact h1
          · have := hx x h1; rw [h2] at this; cases this
        rcases List.append_eq_append_iff.1 ep with ⟨a, e1, e2⟩ | ⟨a, e1, e2⟩
        · cases a with
          | nil => rw [e1] at hxt; simpa using hxt
          | cons f a =>
            simp only [List.cons_append, List.cons.injEq] at e2
            exact absurd hi (hk e (by rw [e1, e2.1]; simp))
        · rw [e1]; exact List.mem_append_left _ hxt
  exact key (ts ++ xs) [] rfl

/-- C101: SQLite runs the files of a dump one after the other, accepts every statement and has exactly
the definitions of the dumped database afterwards. -/
theorem sqlite_dump_load_partial {c : Catalog} {ts xs : List Entry} (hl : Lite c)
    (h : Describes (keywords .sqlite) c ts xs) (hs : Sound (ts ++ xs))
    (hn : ∀ t ∈ tablesOf c, '\n' ∉ t.tableSchema ∧ '\n' ∉ t.tableName) :
    ∃ s1 s2 s3,
      runScript (keywords .sqlite) (Dump.dumpSchema .sqlite c) = some s1 ∧
      runScript (keywords .sqlite) (Dump.dumpIndexes .sqlite c) = some s2 ∧
      runScript (keywords .sqlite) (Dump.dumpConstraints .sqlite c) = some s3 ∧
      Runs [] (s1 ++ s2 ++ s3) (ts ++ xs) := by
  refine ⟨ts, xs, [], (schema_isScript hl h).run, (indexes_isScript h hn).run, ?_, ?_⟩
  · rfl
  · rw [List.append_nil]
    exact runs_sound hs h.kinds h.index

/-! ## From the database to the dump and back -/

open Introspect IntrospectSpec

theorem replacePair_id {a b n : Char} {s : Str} (h : ¬ [a, b] <:+: s) : replacePair a b n s = s := by
  fun_induction replacePair a b n s with
  | case1 x y s hxy ih => exact absurd ⟨[], s, by rw [hxy.1, hxy.2]; rfl⟩ h
  | case2 x y s hxy ih =>
    rw [ih fun ⟨p, q, e⟩ => h ⟨x :: p, q, by rw [← e]; rfl⟩]
  | case3 s hs => rfl

/-- Grouping by distinct keys that cover the list only changes the order. -/
theorem group_perm {α κ : Type} [BEq κ] [LawfulBEq κ] (key : α → κ) (ks : List κ) (xs : List α)
    (hk : ks.Nodup) (hc : ∀ x ∈ xs, key x ∈ ks) :
    (ks.flatMap fun k => xs.filter fun x => key x == k).Perm xs := by
  induction ks generalizing xs with
  | nil =>
    cases xs with
    | nil => exact .nil
    | cons x xs => exact absurd (hc x (by simp)) (by simp)
  | cons k ks ih =>
    rw [List.nodup_cons] at hk
    rw [List.flatMap_cons]
    refine .trans (.append_left _ (t₂ := xs.filter fun x => !(key x == k)) ?_)
      (List.filter_append_perm _ xs)
    refine .trans (.of_eq ?_) (ih (xs.filter fun x => !(key x == k)) hk.2 ?_)
    · rw [List.flatMap_def, List.flatMap_def]
      congr 1
      refine List.map_congr_left fun j hj => ?_
      rw [List.filter_filter]
      refine List.filter_congr fun x _ => ?_
      by_cases e : key x = j
      · have : j ≠ k := by rintro rfl; exact hk.1 hj
        simp [e, this]
      · simp [e]
    · intro x hx
      rw [List.mem_filter] at hx
      have := hc x hx.1
      simp only [List.mem_cons] at this
      exact this.resolve_left (by simpa using hx.2)

/-- Definitions in another order. -/
theorem mapM_perm {α β : Type} (f : α → Option β) {xs xs' : List α} {ys : List β} (hp : xs'.Perm xs)
    (h : xs.mapM f = some ys) : ∃ ys', xs'.mapM f = some ys' ∧ ys'.Perm ys := by
  induction hp generalizing ys with
  | nil => exact ⟨ys, h, .refl _⟩
  | @cons x l1 l2 _ ih =>
    obtain ⟨a, b, h1, h2, rfl⟩ := mapM_append_inv f [x] l2 ys h
    obtain ⟨b', h3, h4⟩ := ih h2
    refine ⟨a ++ b', ?_, h4.append_left a⟩
    rw [show x :: l1 = [x] ++ l1 from rfl, List.mapM_append, h1, h3]; rfl
  | swap x y l =>
    obtain ⟨a, r, h1, h2, rfl⟩ := mapM_append_inv f [x] (y :: l) ys h
    obtain ⟨b, q, h3, h4, rfl⟩ := mapM_append_inv f [y] l r h2
    refine ⟨b ++ (a ++ q), ?_, ?_⟩
    · rw [show y :: x :: l = [y] ++ ([x] ++ l) from rfl, List.mapM_append, List.mapM_append, h1, h3, h4]
      rfl
    · rw [← List.append_assoc, ← List.append_assoc]
      exact .append_right _ List.perm_append_comm
  | trans _ _ ih1 ih2 =>
    obtain ⟨u, h1, h2⟩ := ih2 h
    obtain ⟨v, h3, h4⟩ := ih1 h1
    exact ⟨v, h3, h4.trans h2⟩

theorem Sound.perm {a b : Db} (h : Sound a) (hp : a.Perm b) : Sound b := by
  refine ⟨hp.pairwise h.names fun {x y} hxy e => hxy (show Go.toLower x.name = _ from e.symm), ?_⟩
  intro e he hi
  obtain ⟨x, h1, h2⟩ := h.tables e (hp.mem_iff.2 he) hi
  exact ⟨x, hp.mem_iff.1 h1, h2⟩

/-- What a SQLite database with the definitions `ts` and `xs` answers: the rows of its tables and of its
indexes, each with its definition and a semicolon. -/
structure Answers (kw : List Str) (s : Server) (trs : List Table) (xrs : List IndexRow)
    (ts xs : List Entry) : Prop where
  tables : s.tables = some { rows := trs.map some, failed := false }
  indexes : s.indexes = some { rows := xrs.map some, failed := false }
  tableDefs : trs.mapM (fun r => definition kw r.sql) = some ts
  indexDefs : xrs.mapM (fun r => definition kw r.row.sql) = some xs
  kinds : ∀ e ∈ ts, e.kind ≠ .index
  index : ∀ e ∈ xs, e.kind = .index
  /-- every index is on a table -/
  on : ∀ r ∈ xrs, r.row.tableName ∈ trs.map (·.tableName)

theorem map_some_inj {α : Type} {xs ys : List α} (h : xs.map some = ys.map some) : xs = ys := by
  induction xs generalizing ys with
  | nil => cases ys with
    | nil => rfl
    | cons y ys => cases h
  | cons x xs ih => cases ys with
    | nil => cases h
    | cons y ys =>
      simp only [List.map_cons, List.cons.injEq, Option.some.injEq] at h
      rw [h.1, ih h.2]

/-- What is read of the rows. -/
theorem read_tables {kw : List Str} {s : Server} {trs : List Table} {xrs : List IndexRow}
    {ts xs : List Entry} (h : Answers kw s trs xrs ts xs) {r : List Table}
    (hr : getTables .sqlite s = .ok r) : r = trs.map (scanTable .sqlite) := by
  have : query (fun r => some (scanTable .sqlite r)) s.tables = .ok r := hr
  obtain ⟨rs, e1, e2⟩ := query_ok.1 this
  rw [h.tables] at e1
  simp only [Option.some.injEq, Answer.mk.injEq, and_true] at e1
  rw [map_some_inj e1]
  refine (map_some_inj ?_).symm
  rw [← e2, List.map_map]; rfl

/-- What is read of an index. -/
def indexOf (r : IndexRow) : Index :=
  { tableName := r.row.tableName, indexName := r.row.indexName, isUnique := r.row.isUnique
    columns := nameList r.columns, sql := unixLines r.row.sql }

theorem read_indexes {kw : List Str} {s : Server} {trs : List Table} {xrs : List IndexRow}
    {ts xs : List Entry} (h : Answers kw s trs xrs ts xs) {r : List Index}
    (hr : getIndexes .sqlite s = .ok r) : r = xrs.map indexOf := by
  have : query (scanIndex .sqlite) s.indexes = .ok r := hr
  obtain ⟨rs, e1, e2⟩ := query_ok.1 this
  rw [h.indexes] at e1
  simp only [Option.some.injEq, Answer.mk.injEq, and_true] at e1
  rw [map_some_inj e1]
  refine (map_some_inj ?_).symm
  rw [← e2, List.map_map]; rfl

theorem mapM_map' {α β γ : Type} (f : α → β) (g : β → Option γ) (xs : List α) :
    (xs.map f).mapM g = xs.mapM fun x => g (f x) := by
  induction xs with
  | nil => rfl
  | cons x xs ih => rw [List.map_cons, List.mapM_cons, List.mapM_cons, ih]

theorem mapM_congr' {α β : Type} {f g : α → Option β} {xs : List α} (h : ∀ x ∈ xs, f x = g x) :
    xs.mapM f = xs.mapM g := by
  induction xs with
  | nil => rfl
  | cons x xs ih =>
    rw [List.mapM_cons, List.mapM_cons, ih fun y hy => h y (by simp [hy]), h x (by simp)]

/-- C101: a SQLite database is introspected, dumped and loaded into an empty database, which accepts
every statement and has exactly the definitions of the tables, virtual tables and indexes of the first
in the end.  Partial: no name of a table has a line break and no definition a carriage return before a
line feed; without these it does not hold, see the sample.  `Named`, `Placed` and `KeysKnown` say that
the answers of the database make sense (C79). -/
theorem sqlite_backup_partial {isFloat : Str → Bool} {types : List Str} {s : Server}
    {o : IntrospectSpec.Reported} {exts : List Str} {nums : List Int} {name cur coll : Str}
    {trs : List Table} {xrs : List IndexRow} {ts xs : List Entry}
    (hr : Introspect.Reads isFloat .sqlite types s o exts) (hh : Header .sqlite s nums name cur coll)
    (hn : Named o) (hp : Placed o) (hk : KeysKnown o)
    (ht : includeObjectType types b!"TABLES" = true)
    (h : Answers (keywords .sqlite) s trs xrs ts xs) (hs : Sound (ts ++ xs))
    (hb : ∀ r ∈ trs, '\n' ∉ r.tableName)
    (hc : ∀ r ∈ trs, ¬ b!"\r\n" <:+: r.sql) (hc' : ∀ r ∈ xrs, ¬ b!"\r\n" <:+: r.row.sql) :
    ∃ c s1 s2 s3 db,
      writeCatalog isFloat .sqlite types s {} = .ok c ∧
      runScript (keywords .sqlite) (Dump.dumpSchema .sqlite c) = some s1 ∧
      runScript (keywords .sqlite) (Dump.dumpIndexes .sqlite c) = some s2 ∧
      runScript (keywords .sqlite) (Dump.dumpConstraints .sqlite c) = some s3 ∧
      Runs [] (s1 ++ s2 ++ s3) db ∧ db.Perm (ts ++ xs) := by
  obtain ⟨c, e, hH, hx, -⟩ := writeCatalog_holds_partial hr hh hn hp hk (cat0 := {}) rfl rfl
  have hT : o.tables = trs.map (scanTable .sqlite) := by
    have := hr.tables
    unfold asked at this
    rw [if_pos ht] at this
    exact read_tables h this
  have hI : o.indexes = xrs.map indexOf := by
    have := hr.indexes
    unfold asked at this
    rw [if_pos (by rw [ht]; rfl)] at this
    exact read_indexes h this
  have nothing : ∀ {α : Type} {b : Bool} {xs : List α}, asked b (.ok []) xs → xs = [] := by
    intro α b xs h
    unfold asked at h
    by_cases hb : b = true
    · rw [if_pos hb] at h; cases h; rfl
    · rw [if_neg hb] at h; exact h
  have hext : exts = [] := nothing hr.extensions
  have hen : o.enums = [] := nothing hr.enums
  have hdo : o.domains = [] := nothing hr.domains
  have hro : o.routines = [] := nothing hr.routines
  have hvi : ∀ v ∈ o.views, v.viewSchema = [] := by
    intro v hv
    have := hr.views
    unfold asked at this
    by_cases hb : includeObjectType types b!"VIEWS" = true
    · rw [if_pos hb] at this
      have q : query (fun r => some (scanView .sqlite r)) s.views = .ok o.views := this
      obtain ⟨rs, -, e2⟩ := query_ok.1 q
      obtain ⟨r, -, e3⟩ := mem_of_scan e2 hv
      cases e3; rfl
    · rw [if_neg hb] at this; rw [this] at hv; cases hv
  have hts : ∀ t ∈ o.tables, t.tableSchema = [] := by
    intro t ht
    rw [hT] at ht
    obtain ⟨r, -, rfl⟩ := List.mem_map.1 ht
    rfl
  -- there is at most one schema, the one without a name
  have names : ∀ n ∈ schemaNames o, n = [] := by
    intro n hn
    simp only [schemaNames, hen, hdo, hro, List.map_nil, List.nil_append, List.mem_append, List.mem_map]
      at hn
    rcases hn with ⟨v, hv, rfl⟩ | ⟨t, ht, rfl⟩
    · exact hvi v hv
    · exact hts t ht
  have hsch : ∀ x ∈ c.schemas, x.schemaName = [] := fun x hx =>
    names _ ((hH.2.1 x.schemaName).1 (List.mem_map.2 ⟨x, hx, rfl⟩))
  have hall : o.tables.filter (·.tableSchema == []) = o.tables :=
    List.filter_eq_self.2 fun t ht => by simp [hts t ht]
  have htab : tablesOf c = o.tables.map (tableOf o) := by
    unfold tablesOf
    match hcs : c.schemas with
    | [] =>
      have : o.tables = [] := by
        match hot : o.tables with
        | [] => rfl
        | t :: _ =>
          have := (hH.2.1 t.tableSchema).2 (by simp [schemaNames, hot])
          rw [hcs] at this; cases this
      rw [this]; rfl
    | [x] =>
      have h1 := hH.2.2 x (by rw [hcs]; simp)
      rw [hsch x (by rw [hcs]; simp)] at h1
      rw [h1]
      simp only [List.flatMap_cons, List.flatMap_nil, List.append_nil]
      show (o.tables.filter (·.tableSchema == [])).map (tableOf o) = _
      rw [hall]
    | x :: y :: _ =>
      have := hH.1
      rw [hcs] at this
      simp [hsch x (by rw [hcs]; simp), hsch y (by rw [hcs]; simp)] at this
  have hlite : Lite c := by
    refine ⟨by rw [hx, hext], fun x hx => ?_⟩
    have h1 := hH.2.2 x hx
    rw [h1]
    refine ⟨by rw [hsch x hx]; rfl, ?_, ?_⟩
    · simp [schemaOf, hen]
    · simp [schemaOf, hdo]
  have hidx : indexesOf c = (trs.map (·.tableName)).flatMap fun n =>
      (xrs.map indexOf).filter fun x => x.tableName == n := by
    unfold indexesOf
    rw [htab, hT, hI.symm, List.map_map, List.flatMap_map, List.flatMap_map]
    rw [List.flatMap_def, List.flatMap_def]
    congr 1
    refine List.map_congr_left fun r _ => ?_
    show (o.indexes.filter fun k => !k.isViewIndex && k.tableSchema == [] && k.tableName == r.tableName) = _
    refine List.filter_congr fun x hx => ?_
    rw [hI] at hx
    obtain ⟨y, -, rfl⟩ := List.mem_map.1 hx
    simp [indexOf]
  have hnd : (trs.map (·.tableName)).Nodup := by
    have := hn.tables
    rw [hT, List.map_map] at this
    unfold List.Nodup at this ⊢
    rw [List.pairwise_map] at this ⊢
    refine this.imp fun {a b} h e => h ?_
    show (([] : Str), a.tableName) = ([], b.tableName)
    rw [e]
  have hperm : (indexesOf c).Perm (xrs.map indexOf) := by
    rw [hidx]
    refine group_perm (fun x : Index => x.tableName) _ _ hnd ?_
    intro x hx
    obtain ⟨y, hy, rfl⟩ := List.mem_map.1 hx
    exact h.on y hy
  have d1 : (tablesOf c).mapM (fun t => definition (keywords .sqlite) t.sql) = some ts := by
    rw [htab, hT, List.map_map, mapM_map', ← h.tableDefs]
    refine mapM_congr' fun r hr => ?_
    show definition _ (unixLines r.sql) = _
    unfold unixLines
    rw [replacePair_id (hc r hr)]
  have d2 : (xrs.map indexOf).mapM (fun x => definition (keywords .sqlite) x.sql) = some xs := by
    rw [mapM_map', ← h.indexDefs]
    refine mapM_congr' fun r hr => ?_
    show definition _ (unixLines r.row.sql) = _
    unfold unixLines
    rw [replacePair_id (hc' r hr)]
  obtain ⟨ys, d3, hys⟩ := mapM_perm _ hperm d2
  have hq : (ts ++ ys).Perm (ts ++ xs) := hys.append_left ts
  have hD : Describes (keywords .sqlite) c ts ys :=
    ⟨d1, d3, h.kinds, fun e he => h.index e (hys.mem_iff.1 he)⟩
  obtain ⟨s1, s2, s3, r1, r2, r3, r4⟩ := sqlite_dump_load_partial hlite hD (hs.perm hq.symm) (by
    intro t ht
    rw [htab, hT] at ht
    simp only [List.map_map, List.mem_map] at ht
    obtain ⟨r, hr, rfl⟩ := ht
    exact ⟨by simp [tableOf, scanTable], hb r hr⟩)
  exact ⟨c, s1, s2, s3, ts ++ ys, e, r1, r2, r3, r4, hq⟩

end LiteDump
