import Verif.Lemmas.DumpCatalog
import Verif.Props.PgScript
import Verif.Props.MsMigrates
import Verif.Props.RenderAlter

/-!
# The SQL files of a dump recreate the schema (C95)
-/

namespace DumpParts
open Go SqlSpec Sqddl DdlText EngineSpec Sqddl.Render CatalogSpec
open Sqddl.Wipe (qualified buffer addStmt)
open DumpSpec (Dumpable NoTypes TableDump Ordered KeysNotNull empty withSchemas)

theorem filter_find {α : Type} {p : α → Bool} {xs : List α} (h : (xs.filter p).length ≤ 1) :
    xs.filter p = (xs.find? p).toList := by
  rw [← List.head?_filter]
  match xs.filter p, h with
  | [], _ => rfl
  | [x], _ => rfl
  | _ :: _ :: _, h => simp at h

/-- CREATE TABLE is what `tableMake` says. -/
theorem createTableOf_make {d : Dialect} {kw : List Str} {cur coll : Str} {t : Table} (hd : d ≠ .sqlite)
    (h : TableDump d kw cur coll t) :
    createTableOf d cur coll false t = .createTable (tname cur t) (itemsOf (t.columns.map
      (colOf d coll false)) ((t.constraints.find? fun x => (d = .mysql || d = .sqlserver) &&
        DdlText.primaryKey x).map fun x => (x.constraintName, conOf d cur x))) := by
  have e1 : liveColumns t = t.columns := by
    unfold liveColumns
    rw [List.filter_eq_self]
    intro x hx
    rw [h.columns x hx]; rfl
  have e2 : liveConstraints t = t.constraints := by
    unfold liveConstraints
    rw [List.filter_eq_self]
    intro x hx
    rw [(h.constraints x hx).1]; rfl
  have e3 : tableConstraints d false t = (t.constraints.find? fun x => (d = .mysql || d = .sqlserver) &&
      DdlText.primaryKey x).toList := by
    unfold tableConstraints
    rw [e2]
    have : (fun c : Constraint => if d = .sqlite then !(DdlText.primaryKey c && c.columns.length == 1)
        else if false = true then decide (c.constraintType ≠ b!"FOREIGN KEY")
        else (d = .mysql || d = .sqlserver) && DdlText.primaryKey c) =
        fun c => (d = .mysql || d = .sqlserver) && DdlText.primaryKey c := by
      funext c
      rw [if_neg hd, if_neg (by simp)]
    simp only [this]
    refine filter_find ?_
    have h1 := h.text.onePrimary
    rw [e2] at h1
    refine Nat.le_trans ?_ h1
    rw [← List.countP_eq_length_filter, ← List.countP_eq_length_filter]
    exact List.countP_mono_left fun x _ hx => (Bool.and_eq_true_iff.1 hx).2
  unfold createTableOf itemsOf tname
  rw [e1, e3, List.map_map]
  cases t.constraints.find? fun x => (d = .mysql || d = .sqlserver) && DdlText.primaryKey x <;> rfl

theorem con_facts {d : Dialect} {kw : List Str} {cur coll : Str} {t : Table}
    (h : TableDump d kw cur coll t) {x : Constraint} (hx : x ∈ t.constraints) :
    ConstraintOk d cur x ∧ x.tableSchema = t.tableSchema ∧ x.tableName = t.tableName := by
  obtain ⟨h1, h2, _⟩ := h.constraints x hx
  obtain ⟨h3, h4⟩ := h.text.constraints x (List.mem_filter.2 ⟨hx, by rw [h1]; rfl⟩)
  exact ⟨h3, h4, h2⟩

theorem early_false {t : Tbl} {cols : List Str} (h : DumpSpec.EarlyKey false t cols) :
    ∃ n x, t.idx n = some x ∧ x.unique = true ∧ x.cols = (cols.map fun c => .column c false) ∧
      x.pred = [] := by
  rcases h with ⟨h, _⟩ | h
  · cases h
  · exact h

/-! ## Postgres -/

theorem pg_scripts (cur : Str) : Scripts .postgres (Postgres.IsScript cur) where
  gap := fun s h => ⟨[], h, by simp, rfl⟩
  append := fun h1 h2 => h1.append h2

theorem pg_keeps : Keeps PgSpec.Target false := by
  intro db db' cs ref u u' hT hu hu' hcol hidx _ hk
  obtain ⟨h1, r, hr, h2, cs', hp, h3⟩ := hT
  rw [hu] at hr; cases hr
  refine ⟨h1, u', hu', by rw [hcol]; exact h2, ?_⟩
  rcases hk with hk | hk
  · refine ⟨cs', hp, ?_⟩
    rcases h3 with ⟨n, c, hc, hkind, hd⟩ | h3
    · exact .inl ⟨n, c, hk n c cs' hc hkind, hkind, hd⟩
    · exact .inr (by rw [hidx]; exact h3)
  · exact ⟨ref.cols, List.Perm.refl _, .inr (early_false hk)⟩

section
variable {c : Catalog} (h : Dumpable .postgres (keywords .postgres) (PlainName .postgres) c)

include h in
theorem pg_schema_script {s : Schema} (hs : s ∈ c.schemas) :
    createSchema .postgres s.schemaName ≠ [] ∧
    Postgres.IsScript c.currentSchema (createSchema .postgres s.schemaName)
      [pgStmt (.schema s.schemaName)] :=
  Postgres.isScript_base (createSchema_reads_back .postgres _ _ (.inl rfl) (h.schemas s hs).2.2)
    (by intro n as e; cases e)

include h in
theorem pg_table_script {s : Schema} (hs : s ∈ c.schemas) {t : Table} (ht : t ∈ s.tables) :
    createTable .postgres c.currentSchema c.defaultCollation t false ≠ [] ∧
    Postgres.IsScript c.currentSchema (createTable .postgres c.currentSchema c.defaultCollation t false)
      [pgStmt (tableMake .postgres c.currentSchema c.defaultCollation t)] := by
  have h0 := h.tables s hs t ht
  have := createTable_reads_back .postgres c.currentSchema c.defaultCollation false t h0.text
  rw [createTableOf_make (by decide) h0] at this
  exact Postgres.isScript_base this (by intro n as e; cases e)

include h in
theorem pg_index_script : Postgres.IsScript c.currentSchema (Dump.dumpIndexes .postgres c)
    ((indexMakes .postgres c).map pgStmt) := by
  refine index_script (pg_scripts c.currentSchema) pgStmt h ?_
  intro s hs t ht x hx y hy
  obtain ⟨h0, _⟩ := (h.tables s hs t ht).indexes x hx
  exact (Postgres.isScript_base (createIndex_isStmt h0 hy) (by intro n as e; cases e)).2

include h in
theorem pg_constraint_script : Postgres.IsScript c.currentSchema (Dump.dumpConstraints .postgres c)
    ((conMakes .postgres c).map pgStmt) := by
  refine constraint_script (pg_scripts c.currentSchema) pgStmt h (by decide) ?_
  intro s hs t ht x hx
  have h0 := h.tables s hs t ht
  obtain ⟨hok, e1, e2⟩ := con_facts h0 hx
  have hp := (Postgres.isScript_alter (n := x.tableName) (s := x.tableSchema)
    (by rw [e1]; exact h0.text.schema) (by rw [e2]; exact h0.text.name)
    (Postgres.isAct_addConstraint c.currentSchema x hok false) b!";\n" gap_semi).2
  have et : Dump.addConstraint .postgres c.currentSchema x =
      b!"ALTER TABLE " ++ qualified .postgres c.currentSchema x.tableSchema x.tableName ++
      (b!" " ++ (b!"ADD " ++ constraintDef .postgres c.currentSchema x ++ opt false b!" NOT VALID")) ++
      b!";\n" := by
    unfold Dump.addConstraint opt
    simp
  rw [et]
  have ev : Postgres.withValid false (conOf .postgres c.currentSchema x) =
      conOf .postgres c.currentSchema x := by
    unfold Postgres.withValid conOf
    rw [hok.valid]
  rw [ev, e1, e2] at hp
  rw [e1, e2]
  exact hp

include h in
/-- The statements of the three files, one after the other. -/
theorem pg_all_run (ho : Ordered .postgres (keywords .postgres) c)
    (hG : PgSpec.Consistent (DumpSpec.dbOf .postgres (keywords .postgres) c))
    (hn : KeysNotNull (DumpSpec.dbOf .postgres (keywords .postgres) c))
    (ha : ∀ s ∈ c.schemas, ∀ t ∈ s.tables, ∀ x ∈ t.columns,
      PgSpec.addable (colOf .postgres c.defaultCollation false x) = true) (E : Str → Bool) :
    PgSpec.Runs (empty E) ((schemaMakes c ++ (tableMakes .postgres c ++ (indexMakes .postgres c ++
        conMakes .postgres c))).map pgStmt)
      (withSchemas E (DumpSpec.dbOf .postgres (keywords .postgres) c)) := by
  have hp := dump_parts h
  have hord := hp.order (T := PgSpec.Target) (E := E) (dump_targets h (T := PgSpec.Target) pg_keeps
    (fun k u n x cs ref hu hx hk => hG.fkey k n cs ref ⟨u, x, hu, hx, hk⟩)
    (fun cs ref hT => by obtain ⟨_, r, hr, _⟩ := hT; exact ⟨r, hr⟩) ho)
  have hrun := pg_runs (E := E) hG (fun k u n x hu hx cs hk y hy z hz => hn k u n x cs hu hx hk y hy z hz)
    _ hord ?_
  · rw [hp.start, part_nil] at hrun
    simpa [List.map_append, List.append_assoc, withSchemas] using hrun
  · intro m hm
    rcases List.mem_append.1 hm with hm | hm
    · obtain ⟨s, _, rfl⟩ := List.mem_map.1 hm
      trivial
    · rcases List.mem_append.1 hm with hm | hm
      · obtain ⟨s, hs, t, ht, rfl⟩ := mem_tableMakes hm
        refine ⟨?_, ?_⟩
        · have : (t.constraints.find? fun x => ((Dialect.postgres = .mysql : Bool) ||
              (Dialect.postgres = .sqlserver : Bool)) && DdlText.primaryKey x) = none := by
            rw [List.find?_eq_none]
            intro x _
            simp
          rw [this]; rfl
        · intro y hy
          obtain ⟨x, hx, rfl⟩ := List.mem_map.1 hy
          exact ha s hs t ht x hx
      · rcases List.mem_append.1 hm with hm | hm
        · obtain ⟨s, _, t, _, x, _, y, _, rfl⟩ := mem_indexMakes hm
          trivial
        · obtain ⟨s, _, t, x, ⟨_, _, rfl⟩, _⟩ := mem_conMakes hm
          trivial

end

/-- C95 (partial: see DESIGN.md): Postgres.  The three files of a dump are read as statements that an
empty database accepts one after the other, and the result is the database that was dumped. -/
theorem pg_dump_load_partial {c : Catalog}
    (h : Dumpable .postgres (keywords .postgres) (PlainName .postgres) c) (h0 : NoTypes c)
    (ho : Ordered .postgres (keywords .postgres) c)
    (hG : PgSpec.Consistent (DumpSpec.dbOf .postgres (keywords .postgres) c))
    (hn : KeysNotNull (DumpSpec.dbOf .postgres (keywords .postgres) c))
    (ha : ∀ s ∈ c.schemas, ∀ t ∈ s.tables, ∀ x ∈ t.columns,
      PgSpec.addable (colOf .postgres c.defaultCollation false x) = true) (E : Str → Bool) :
    ∃ s1 s2 s3,
      PgText.runScript (keywords .postgres) c.currentSchema (Dump.dumpSchema .postgres c) = some s1 ∧
      PgText.runScript (keywords .postgres) c.currentSchema (Dump.dumpIndexes .postgres c) = some s2 ∧
      PgText.runScript (keywords .postgres) c.currentSchema (Dump.dumpConstraints .postgres c) = some s3 ∧
      PgSpec.Runs (empty E) (s1 ++ s2 ++ s3)
        (withSchemas E (DumpSpec.dbOf .postgres (keywords .postgres) c)) := by
  refine ⟨_, _, _, (schema_script (pg_scripts c.currentSchema) pgStmt h h0
    (fun s hs => pg_schema_script h hs) (fun s hs t ht => pg_table_script h hs ht)).run,
    (pg_index_script h).run, (pg_constraint_script h).run, ?_⟩
  have := pg_all_run h ho hG hn ha E
  simpa [List.map_append, List.append_assoc] using this

/-! ## SQL Server -/

theorem ms_scripts (cur : Str) : Scripts .sqlserver (Sqlserver.IsScript cur) where
  gap := fun s h => ⟨[], [], h, by simp, fun rest => by simp, rfl⟩
  append := fun h1 h2 => h1.append h2

theorem ms_keeps : Keeps MsSpec.Target true := by
  intro db db' cs ref u u' hT hu hu' hcol hidx _ hk
  obtain ⟨h1, r, hr, h2, cs', hp, h3⟩ := hT
  rw [hu] at hr; cases hr
  refine ⟨h1, u', hu', by rw [hcol]; exact h2, ?_⟩
  rcases hk with hk | ⟨_, n, c, hc, hkind⟩ | hk
  · refine ⟨cs', hp, ?_⟩
    rcases h3 with ⟨n, c, hc, hkind⟩ | h3
    · exact .inl ⟨n, c, hk n c cs' hc hkind, hkind⟩
    · exact .inr (by rw [hidx]; exact h3)
  · exact ⟨ref.cols, List.Perm.refl _, .inl ⟨n, c, hc, .inl hkind⟩⟩
  · exact ⟨ref.cols, List.Perm.refl _, .inr hk⟩

/-- C95 (partial: see DESIGN.md): SQL Server. -/
theorem ms_dump_load_partial {c : Catalog}
    (h : Dumpable .sqlserver (keywords .sqlserver) MsSpec.SchemaName c) (h0 : NoTypes c)
    (ho : Ordered .sqlserver (keywords .sqlserver) c)
    (hG : MsSpec.Consistent (DumpSpec.dbOf .sqlserver (keywords .sqlserver) c))
    (hn : KeysNotNull (DumpSpec.dbOf .sqlserver (keywords .sqlserver) c))
    (he : ∀ s ∈ c.schemas, ∀ t ∈ s.tables, ∀ x ∈ t.constraints, x.constraintType ≠ b!"EXCLUDE")
    (ha : ∀ s ∈ c.schemas, ∀ t ∈ s.tables, ∀ x ∈ t.columns,
      MsSpec.addable (colOf .sqlserver c.defaultCollation false x) = true ∧
      (x.columnIdentity ≠ [] → ∀ y ∈ t.columns, y.columnIdentity ≠ [] → y.columnName = x.columnName))
    (N : MsSpec.Numbers) (E : Str → Bool) :
    ∃ s1 s2 s3,
      MsText.runScript (keywords .sqlserver) c.currentSchema (Dump.dumpSchema .sqlserver c) = some s1 ∧
      MsText.runScript (keywords .sqlserver) c.currentSchema (Dump.dumpIndexes .sqlserver c) = some s2 ∧
      MsText.runScript (keywords .sqlserver) c.currentSchema (Dump.dumpConstraints .sqlserver c) =
        some s3 ∧
      MsSpec.Runs N (empty E) (s1 ++ s2 ++ s3)
        (withSchemas E (DumpSpec.dbOf .sqlserver (keywords .sqlserver) c)) := by
  have hP := ms_scripts c.currentSchema
  refine ⟨_, _, _, (schema_script hP msStmt h h0 ?_ ?_).run, (index_script hP msStmt h ?_).run,
    (constraint_script hP msStmt h (by decide) ?_).run, ?_⟩
  · intro s hs
    have := MsSpec.schemaText (h.schemas s hs).2.2
    exact Sqlserver.createSchema_isScript _ _ this.name this.quotes this.ident
  · intro s hs t ht
    have h0 := h.tables s hs t ht
    have := createTable_reads_back .sqlserver c.currentSchema c.defaultCollation false t h0.text
    rw [createTableOf_make (by decide) h0] at this
    exact Sqlserver.isScript_base this (.inl ⟨_, _, rfl⟩)
  · intro s hs t ht x hx y hy
    obtain ⟨h0, _⟩ := (h.tables s hs t ht).indexes x hx
    exact (Sqlserver.isScript_base (createIndex_isStmt h0 hy) (.inr ⟨_, rfl⟩)).2
  · intro s hs t ht x hx
    have h0 := h.tables s hs t ht
    obtain ⟨hok, e1, e2⟩ := con_facts h0 hx
    have hp := (Sqlserver.isScript_alter (n := x.tableName) (s := x.tableSchema)
      (by rw [e1]; exact h0.text.schema) (by rw [e2]; exact h0.text.name)
      (Sqlserver.isAct_addConstraint c.currentSchema x.tableSchema x hok)).2
    have et : Dump.addConstraint .sqlserver c.currentSchema x =
        b!"ALTER TABLE " ++ qualified .sqlserver c.currentSchema x.tableSchema x.tableName ++
        (b!" " ++ (b!"ADD " ++ constraintDef .sqlserver c.currentSchema x)) ++ b!";\n" := by
      unfold Dump.addConstraint
      simp
    rw [et]
    rw [e1, e2] at hp
    rw [e1, e2]
    exact hp
  · have hp := dump_parts h
    have hord := hp.order (T := MsSpec.Target) (E := E) (dump_targets h (T := MsSpec.Target) ms_keeps
      (fun k u n x cs ref hu hx hk => hG.fkey k n cs ref ⟨u, x, hu, hx, hk⟩)
      (fun cs ref hT => by obtain ⟨_, r, hr, _⟩ := hT; exact ⟨r, hr⟩) ho)
    have hrun := ms_runs (N := N) (E := E) hG
      (fun k u n x hu hx cs hk y hy z hz => hn k u n x cs hu hx hk y hy z hz) ?_ _ hord ?_
    · rw [hp.start, part_nil] at hrun
      simpa [List.map_append, List.append_assoc, withSchemas] using hrun
    · intro k u n x a b p hu hx hk
      obtain ⟨s, hs, t, ht, rfl, rfl⟩ := table_inv h hu
      obtain ⟨y, hy, rfl⟩ := Option.map_eq_some_iff.1 hx
      have hm := List.mem_of_find?_eq_some hy
      have ht := ((h.tables s hs t ht).constraints y hm).2.2
      have hne := he s hs t ‹_› y hm
      have hk : kindOf .sqlserver c.currentSchema y = .exclude a b p := hk
      simp only [List.mem_cons, List.not_mem_nil, or_false] at ht
      unfold kindOf at hk
      rcases ht with e | e | e | e | e
      · rw [if_pos e] at hk; cases hk
      · rw [if_neg (by rw [e]; decide), if_pos e] at hk; cases hk
      · rw [if_neg (by rw [e]; decide), if_neg (by rw [e]; decide), if_pos e] at hk; cases hk
      · rw [if_neg (by rw [e]; decide), if_neg (by rw [e]; decide), if_neg (by rw [e]; decide),
          if_pos e] at hk
        cases hk
      · exact hne e
    · intro m hm
      rcases List.mem_append.1 hm with hm | hm
      · obtain ⟨s, _, rfl⟩ := List.mem_map.1 hm
        trivial
      · rcases List.mem_append.1 hm with hm | hm
        · obtain ⟨s, hs, t, ht, rfl⟩ := mem_tableMakes hm
          refine ⟨?_, ?_⟩
          · intro p hp
            obtain ⟨x, hx, rfl⟩ := Option.map_eq_some_iff.1 hp
            have := List.find?_some hx
            exact kind_primary (d := .sqlserver) (cur := c.currentSchema).2 (Bool.and_eq_true_iff.1 this).2
          · intro y hy
            obtain ⟨x, hx, rfl⟩ := List.mem_map.1 hy
            obtain ⟨h1, h2⟩ := ha s hs t ht x hx
            refine ⟨h1, ?_⟩
            have id_ne : ∀ z : Column, (colOf .sqlserver c.defaultCollation false z).identity.isSome →
                z.columnIdentity ≠ [] := by
              intro z hz e
              revert hz
              simp [colOf, e]
            intro hi z hz hiz
            obtain ⟨w, hw, rfl⟩ := List.mem_map.1 hz
            exact h2 (id_ne x hi) w hw (id_ne w hiz)
        · rcases List.mem_append.1 hm with hm | hm
          · obtain ⟨s, _, t, _, x, _, y, _, rfl⟩ := mem_indexMakes hm
            trivial
          · obtain ⟨s, _, t, x, ⟨_, _, rfl⟩, _⟩ := mem_conMakes hm
            trivial

/-! ## MySQL -/

/-- A text that is these statements. -/
def IsScript (d : Dialect) (cur s : Str) (sts : List DdlText.Stmt) : Prop :=
  ∃ (tss : List (List Tok)) (raw : List DdlText.Stmt), Reads d s (tss.flatMap fun ts => ts ++ [.punct ';']) ∧
    (∀ ts ∈ tss, Tok.punct ';' ∉ ts) ∧ tss.mapM (readStmt d (keywords d)) = some raw ∧
    raw.map (DdlText.Stmt.resolve d cur) = sts

theorem my_scripts (d : Dialect) (cur : Str) : Scripts d (IsScript d cur) where
  gap := fun s h => ⟨[], [], h, by simp, rfl, rfl⟩
  append := by
    rintro s t a b ⟨xs, ra, r1, n1, m1, e1⟩ ⟨ys, rb, r2, n2, m2, e2⟩
    refine ⟨xs ++ ys, ra ++ rb, by rw [List.flatMap_append]; exact r1.append r2, ?_,
      Postgres.mapM_append' _ _ _ _ _ m1 m2, by rw [List.map_append, e1, e2]⟩
    intro ts hts
    rcases List.mem_append.1 hts with h | h
    · exact n1 ts h
    · exact n2 ts h

theorem IsScript.run {d : Dialect} {cur s : Str} {sts : List DdlText.Stmt} (h : IsScript d cur s sts) :
    DdlText.runScript d (keywords d) cur s = some sts := by
  obtain ⟨tss, raw, r, n, m, e⟩ := h
  unfold DdlText.runScript readScript
  rw [lex_of_readsP r.readsP, Option.bind_some, statements_flatMap tss n, m, Option.map_some, e]

theorem isScript_one {d : Dialect} {cur s : Str} {st : DdlText.Stmt} (h : IsStmt d cur s st) :
    s ≠ [] ∧ IsScript d cur s [st] := by
  obtain ⟨h0, ts, h1, h2, h3⟩ := h
  obtain ⟨raw, h4, h5⟩ := Option.map_eq_some_iff.1 h3
  exact ⟨h0, [ts], [raw], by simpa using h1, by simpa using h2, by simp [h4], by simp [h5]⟩

theorem my_keeps : Keeps Db.Target true := by
  intro db db' cs ref u u' hT hu hu' hcol hidx _ hk
  obtain ⟨h1, r, hr, h2, h3⟩ := hT
  rw [hu] at hr; cases hr
  refine ⟨h1, u', hu', by rw [hcol]; exact h2, ?_⟩
  rcases hk with hk | ⟨_, n, c, hc, hkind⟩ | ⟨n, x, hx, h4, h5, _⟩
  · rcases h3 with ⟨n, c, hc, hkind⟩ | h3
    · exact .inl ⟨n, c, hk n c ref.cols hc hkind, hkind⟩
    · exact .inr (by rw [hidx]; exact h3)
  · exact .inl ⟨n, c, hc, .inl hkind⟩
  · exact .inr ⟨n, x, hx, h4, h5⟩

/-- C95 (partial: see DESIGN.md): MySQL. -/
theorem mysql_dump_load_partial {c : Catalog}
    (h : Dumpable .mysql (keywords .mysql) (PlainName .mysql) c) (h0 : NoTypes c)
    (ho : Ordered .mysql (keywords .mysql) c)
    (hG : (DumpSpec.dbOf .mysql (keywords .mysql) c).Consistent)
    (hp : ∀ s ∈ c.schemas, ∀ t ∈ s.tables, ∀ x ∈ t.constraints, x.constraintType = b!"PRIMARY KEY" →
      x.constraintName = b!"PRIMARY") (E : Str → Bool) :
    ∃ s1 s2 s3,
      DdlText.runScript .mysql (keywords .mysql) c.currentSchema (Dump.dumpSchema .mysql c) = some s1 ∧
      DdlText.runScript .mysql (keywords .mysql) c.currentSchema (Dump.dumpIndexes .mysql c) = some s2 ∧
      DdlText.runScript .mysql (keywords .mysql) c.currentSchema (Dump.dumpConstraints .mysql c) =
        some s3 ∧
      Runs (empty E) (s1 ++ s2 ++ s3) (withSchemas E (DumpSpec.dbOf .mysql (keywords .mysql) c)) := by
  have hP := my_scripts .mysql c.currentSchema
  refine ⟨_, _, _, (schema_script hP myStmt h h0 ?_ ?_).run, (index_script hP myStmt h ?_).run,
    (constraint_script hP myStmt h (by decide) ?_).run, ?_⟩
  · intro s hs
    exact isScript_one (createSchema_reads_back .mysql _ _ (.inr rfl) (h.schemas s hs).2.2)
  · intro s hs t ht
    have h0 := h.tables s hs t ht
    have := createTable_reads_back .mysql c.currentSchema c.defaultCollation false t h0.text
    rw [createTableOf_make (by decide) h0] at this
    exact isScript_one this
  · intro s hs t ht x hx y hy
    obtain ⟨h0, _⟩ := (h.tables s hs t ht).indexes x hx
    exact (isScript_one (createIndex_isStmt h0 hy)).2
  · intro s hs t ht x hx
    have h0 := h.tables s hs t ht
    obtain ⟨hok, e1, e2⟩ := con_facts h0 hx
    have hp := (isScript_one (mysql_addFkey_reads_back c.currentSchema x
      (by rw [e1]; exact h0.text.schema) (by rw [e2]; exact h0.text.name) hok)).2
    have et : Dump.addConstraint .mysql c.currentSchema x = Mysql.addFkey c.currentSchema x := by
      unfold Dump.addConstraint Mysql.addFkey
      simp
    rw [et]
    unfold addConstraintOf at hp
    rw [e1, e2] at hp
    exact hp
  · have hpt := dump_parts h
    have hord := hpt.order (T := Db.Target) (E := E) (dump_targets h (T := Db.Target) my_keeps
      (fun k u n x cs ref hu hx hk => hG.fkey k u n x cs ref hu hx hk)
      (fun cs ref hT => by obtain ⟨_, r, hr, _⟩ := hT; exact ⟨r, hr⟩) ho)
    have cid : ∀ s ∈ c.schemas, ∀ t ∈ s.tables, ∀ x ∈ t.constraints,
        conId (conOf .mysql c.currentSchema x) = x.constraintName := by
      intro s hs t ht x hx
      unfold conId
      by_cases e : x.constraintType = b!"PRIMARY KEY"
      · have : (conOf .mysql c.currentSchema x).kind = .primary x.columns := if_pos e
        rw [this, hp s hs t ht x hx e]
      · have hne : ∀ cs, (conOf .mysql c.currentSchema x).kind ≠ .primary cs := by
          intro cs hk
          have := kind_primary (d := .mysql) (cur := c.currentSchema).1 ⟨cs, hk⟩
          unfold DdlText.primaryKey at this
          exact e (by simpa using this)
        have hnm : (conOf .mysql c.currentSchema x).name = some x.constraintName := by
          show (if x.constraintName = [] ∨ Dialect.mysql = .mysql ∧ x.constraintType = b!"PRIMARY KEY"
            then none else some x.constraintName) = _
          rw [if_neg]
          rintro (h1 | ⟨_, h1⟩)
          · exact ((h.ok.ok s hs).ok t ht).named x hx h1
          · exact e h1
        cases hk : (conOf .mysql c.currentSchema x).kind with
        | primary cs => exact absurd hk (hne cs)
        | _ => dsimp only; rw [hnm]; rfl
    have hrun := my_runs (E := E) hG _ hord ?_ ?_
    · rw [hpt.start, part_nil] at hrun
      simpa [List.map_append, List.append_assoc, withSchemas] using hrun
    · intro m hm
      rcases List.mem_append.1 hm with hm | hm
      · obtain ⟨s, _, rfl⟩ := List.mem_map.1 hm
        trivial
      · rcases List.mem_append.1 hm with hm | hm
        · obtain ⟨s, hs, t, ht, rfl⟩ := mem_tableMakes hm
          intro p hp
          obtain ⟨x, hx, rfl⟩ := Option.map_eq_some_iff.1 hp
          have hm := List.mem_of_find?_eq_some hx
          have := List.find?_some hx
          refine ⟨cid s hs t ht x hm, fun cs ref hk => ?_⟩
          obtain ⟨cs', hk'⟩ := kind_primary (d := .mysql) (cur := c.currentSchema).2
            (Bool.and_eq_true_iff.1 this).2
          have hk : kindOf .mysql c.currentSchema x = .foreign cs ref := hk
          rw [hk] at hk'; cases hk'
        · rcases List.mem_append.1 hm with hm | hm
          · obtain ⟨s, _, t, _, x, _, y, _, rfl⟩ := mem_indexMakes hm
            trivial
          · obtain ⟨s, hs, t, x, ⟨ht, hx, rfl⟩, _⟩ := mem_conMakes hm
            exact cid s hs t ht x hx
    · intro k t n x cols ref ht
      rw [hpt.start] at ht
      cases ht

end DumpParts
