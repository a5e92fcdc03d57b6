import Verif.Spec.PgExpress
import Verif.Props.PgConverges
import Verif.Props.MysqlMigrates

/-!
# Generating a Postgres migration and migrating (C67)
-/

namespace PgSpec
open SqlSpec Sqddl DdlText PgText FileSpec Sqddl.Files Sqddl.Postgres
open EngineSpec (Safe safe_append noSpaces_safe mapM_bind schema_of_table find_some hasSchema_iff
  mem_commonColumns_iff mem_commonConstraints_iff)
open PgText (Act Stmt)
open CatalogSpec (keyConstraint foreignKey liveColumns liveConstraints liveIndexes hasColumn hasIndex
  hasConstraint commonTables TableOk liveTables liveSchemas hasTable hasSchema hasTableConstraint)

/-! ## The texts of the migration -/

theorem unchanged_same {coll : Str} {a b : Column} (h : Unchanged a b) :
    columnsAreDifferent .postgres coll a b = false := by
  obtain ⟨h1, h2, h3, h4, h5⟩ := h
  unfold columnsAreDifferent
  simp only [h1, h2, h3, h4, h5]
  cases b.columnIdentity <;> cases b.isPrimaryKey <;> cases b.isNotNull <;> simp

theorem column_text {c : Column} (h : AlterColumnText c) : ColumnText c where
  self := h.self
  type := h.type
  collation := h.collation
  identity := h.identity
  check := h.check
  default := by
    intro h1
    have hne : c.columnDefault ≠ [] := fun e => h1 ((castOk_nil h.cast).2 e)
    obtain ⟨hf, hg, hh⟩ := h.default
    have hh := hh hne
    have hun : ∃ x, Uncast c.columnDefault x := by
      rcases h.cast with h2 | ⟨x, hx, _⟩
      · exact absurd h2 hne
      · exact ⟨x, hx⟩
    obtain ⟨x, hx⟩ := hun
    have hcl := pg_classify c.columnDefault x hx
    have e1 := hx.1
    rw [e1] at hf hg hh
    simp only at hcl
    generalize normalizeColumnDefault .postgres c.columnDefault = r at hcl ⊢
    rcases hcl with ⟨-, rfl⟩ | ⟨-, rfl⟩ | ⟨h3, rfl⟩ | ⟨-, rfl⟩ | rfl
    · decide +kernel
    · decide +kernel
    · simp only [List.mem_cons, List.not_mem_nil, or_false] at h3
      rcases h3 with h3 | h3 | h3 <;> rw [h3] <;> decide +kernel
    · decide +kernel
    · exact ⟨hf, hg, hh⟩

section
variable {e : Env} {drop : Bool} {src dest : Catalog}

theorem schema_plain (he : Expressible e.cur e.coll src dest) {t : Table}
    (h : t ∈ liveTables src ∨ t ∈ liveTables dest) (hs : CatalogSpec.Ok src)
    (hd : CatalogSpec.Ok dest) : PlainName .postgres t.tableSchema := by
  rcases h with h | h
  · obtain ⟨s, h1, h2⟩ := List.mem_map.1 (hasSchema_iff.1 (schema_of_table hs h))
    rw [← h2]
    exact he.schemas s (List.mem_append_left _ h1)
  · obtain ⟨s, h1, h2⟩ := List.mem_map.1 (hasSchema_iff.1 (schema_of_table hd h))
    rw [← h2]
    exact he.schemas s (List.mem_append_right _ h1)

theorem pg_plan_text (hv : e.version = src.versionNums) (hcoll : e.coll = src.defaultCollation)
    (hs : Described src) (hd : Described dest)
    (hc : Comparable e.cur e.coll (lowerThan e.version [12]) drop src dest)
    (he : Expressible e.cur e.coll src dest) : PlanText e (pgEvents src dest drop) := by
  have hnew : ∀ old, ∀ c ∈ (newFkeys src dest old).map (·.2), NameText c.tableSchema c.tableName ∧
      PlainName .postgres c.constraintName ∧ ConstraintOk .postgres e.cur c := by
    intro old c hc'
    rw [newFkeys_eq] at hc'
    obtain ⟨t, h1, h2, h3⟩ := mem_constraintsOf hd hc'
    obtain ⟨h4, h5⟩ := tab_some h1
    have e1 : t.tableSchema = c.tableSchema := congrArg Prod.fst h5
    have e2 : t.tableName = c.tableName := congrArg Prod.snd h5
    have h6 := ((he.tables t h4).constraints c (find_some h2).1).1
    rw [← e1, ← e2]
    exact ⟨⟨fun _ => schema_plain he (Or.inr h4) hs.ok hd.ok, (he.tables t h4).name⟩,
      h6.name (EngineSpec.named (liveTables_ok hd.ok h4) (find_some h2).1), h6⟩
  refine ⟨?_, ?_, ?_, ?_, ?_, ?_, ?_, ?_⟩
  · intro c hc'
    have hc' := (dropFkeys_pg hs.ok hd.ok drop).mem_iff.1 hc'
    cases drop with
    | false => cases hc'
    | true =>
      rw [if_pos rfl, goneFkeys_eq] at hc'
      obtain ⟨t, h1, h2, h3⟩ := mem_constraintsOf hs hc'
      obtain ⟨h4, h5⟩ := tab_some h1
      have e1 : t.tableSchema = c.tableSchema := congrArg Prod.fst h5
      have e2 : t.tableName = c.tableName := congrArg Prod.snd h5
      rw [← e1, ← e2]
      exact ⟨⟨fun _ => schema_plain he (Or.inl h4) hs.ok hd.ok, (he.names t h4).1⟩,
        (he.names t h4).2.2.1 c (find_some h2).1⟩
  · intro s h
    have h1 : (pgEvents src dest drop).filterMap Ev.dropSchema? = _ :=
      dropSchemas_exact pg_server hs.ok hd.ok drop
    rw [h1] at h
    cases drop with
    | false => cases h
    | true => exact he.schemas s (List.mem_append_left _ (List.mem_filter.1 h).1)
  · intro n h
    have h1 : (pgEvents src dest drop).filterMap Ev.createSchema? = _ :=
      createSchemas_exact pg_server hs.ok hd.ok drop
    rw [h1] at h
    obtain ⟨s, h2, rfl⟩ := List.mem_map.1 h
    exact he.schemas s (List.mem_append_right _ (List.mem_filter.1 h2).1)
  · intro t h
    have h1 : (pgEvents src dest drop).filterMap Ev.dropTable? = _ :=
      dropTables_exact pg_server hs.ok hd.ok drop
    rw [h1] at h
    cases drop with
    | false => cases h
    | true =>
      rw [if_pos rfl, mem_dropTables_iff] at h
      exact ⟨fun _ => schema_plain he (Or.inl h.1) hs.ok hd.ok, (he.names t h.1).1⟩
  · intro t h
    have h1 : (pgEvents src dest drop).filterMap Ev.createTable? = _ :=
      createTables_exact pg_server hs.ok hd.ok drop
    rw [h1, List.mem_filter] at h
    exact ⟨he.tables t h.1, he.indexes t h.1⟩
  · intro a ha
    obtain ⟨p, hp, rfl⟩ := mem_alters pg_server hs.ok hd.ok ha
    obtain ⟨h1, h2, -⟩ := mem_commonTables hp
    have hch := changes hs.ok hd.ok e hv hcoll drop hp (hs.primary p.1 h1) (liveTables_ok hs.ok h1)
    have hpo := pairOk hs hd hc hp
    have htext := he.tables p.2 h2
    have hn := he.names p.1 h1
    have hcol : ∀ q ∈ changedCols e.coll p.1 p.2, q.2 ∈ liveColumns p.2 ∧ AlterColumnText q.2 := by
      intro q hq
      obtain ⟨h3, h4⟩ := List.mem_filter.1 hq
      obtain ⟨n, -, h5⟩ := (mem_commonColumns_iff (liveTables_ok hd.ok h2)).1 h3
      refine ⟨(find_some h5).1, ?_⟩
      rcases he.columns p hp q h3 with h6 | h6
      · rw [unchanged_same h6] at h4; cases h4
      · exact h6
    have hcn : ∀ x ∈ liveConstraints p.2, PlainName .postgres x.constraintName := fun x hx =>
      (htext.constraints x hx).1.name (EngineSpec.named (liveTables_ok hd.ok h2) hx)
    exact {
      table := ⟨htext.schema, htext.name⟩
      dropIndexes := by
        intro x hx
        rw [show (Sqddl.alterTableOf .postgres (diffEnv src dest drop) p.1 p.2).dropIndexes = _ from
          hch.dropIndexes] at hx
        unfold lostIdxs at hx
        split at hx
        · have h3 := (List.mem_filter.1 hx).1
          refine ⟨fun _ => ?_, hn.2.2.2 x h3⟩
          rw [hpo.srcIndexes x (List.mem_filter.1 h3).1]
          exact schema_plain he (Or.inl h1) hs.ok hd.ok
        · cases hx
      dropConstraints := fun x hx => hn.2.2.1 x (dropped_key hs.ok hd.ok drop hp hx).1
      dropColumns := by
        intro x hx
        rw [show (Sqddl.alterTableOf .postgres (diffEnv src dest drop) p.1 p.2).dropColumns = _ from
          hch.dropColumns] at hx
        unfold lostCols at hx
        split at hx
        · exact hn.2.1 x (List.mem_filter.1 hx).1
        · cases hx
      addColumns := by
        intro x hx
        rw [show (Sqddl.alterTableOf .postgres (diffEnv src dest drop) p.1 p.2).addColumns = _ from
          hch.addColumns] at hx
        exact htext.columns x (List.mem_filter.1 hx).1
      alterColumns := by
        intro q hq
        rw [show (Sqddl.alterTableOf .postgres (diffEnv src dest drop) p.1 p.2).alterColumns = _ from
          hch.alterColumns] at hq
        exact column_text (hcol q hq).2
      alterConstraints := by
        intro q hq
        have h3 : q.2 ∈ flagged p.1 p.2 := by
          rw [← hch.alterConstraints]
          exact List.mem_map.2 ⟨q, hq, rfl⟩
        obtain ⟨r, hr, h4⟩ := List.mem_map.1 h3
        obtain ⟨n, -, h5⟩ := (mem_commonConstraints_iff (liveTables_ok hd.ok h2)).1
          (List.mem_filter.1 hr).1
        rw [← h4]
        exact hcn _ (find_some h5).1
      validateNotNull := by
        intro x hx
        rw [show (Sqddl.alterTableOf .postgres (diffEnv src dest drop) p.1 p.2).validateNotNull = _ from
          hch.validate] at hx
        obtain ⟨q, hq, rfl⟩ := List.mem_map.1 hx
        obtain ⟨h3, h4⟩ := hcol q (List.mem_filter.1 hq).1
        exact ⟨h4.check, (htext.columns q.2 h3).name⟩
      createIndexes := by
        intro x hx
        rw [show (Sqddl.alterTableOf .postgres (diffEnv src dest drop) p.1 p.2).createIndexes = _ from
          hch.createIndexes] at hx
        exact he.indexes p.2 h2 x (List.mem_filter.1 (List.mem_filter.1 hx).1).1
      addConstraints := by
        intro x hx
        rw [show (Sqddl.alterTableOf .postgres (diffEnv src dest drop) p.1 p.2).addConstraints = _ from
          hch.addConstraints] at hx
        obtain ⟨h3, h4⟩ := List.mem_filter.1 hx
        rw [Bool.and_eq_true, Bool.not_eq_true'] at h4
        have h5 : x.constraintType = b!"PRIMARY KEY" ∨ x.constraintType = b!"UNIQUE" := by
          have := h4.1
          simpa [keyConstraint, PRIMARY_KEY, UNIQUE] using this
        have h6 := (htext.constraints x h3).1
        have h7 := h6.columns (by rcases h5 with h5 | h5 <;> rw [h5] <;> decide)
        have h8 := (hpo.pair.keys x h3 h4.1 h4.2).2.2
        obtain ⟨e1, e2⟩ := hpo.constraints x h3
        refine ⟨hcn x h3, h5, ⟨by decide, hcn x h3, ?_, ?_, rfl, (fun h => by cases h), ?_, (fun h => by cases h), h7.1, ?_,
          (fun _ h => by cases h), (by
            show Fragment .postgres [] ∧ bal 0 (toks .postgres []) = true
            decide +kernel)⟩⟩
        · show x.tableSchema ≠ [] → PlainName .postgres x.tableSchema
          rw [e1]; exact htext.schema
        · show PlainName .postgres x.tableName
          rw [e2]; exact htext.name
        · intro h; exact absurd h (by simp [special, keyIndex])
        · intro n hn'
          rw [if_neg (by rw [h8 n hn']; exact Bool.false_ne_true)]
          exact h7.2 n hn' }
  · intro c hc'
    rw [addFastFkeys_pg hs.ok hd.ok] at hc'
    exact ⟨(hnew false c hc').1, (hnew false c hc').2.2⟩
  · intro c hc'
    rw [addFkeys_pg hs.ok hd.ok] at hc'
    exact hnew true c hc'

/-- C66 and C67: the files of a migration are read back as statements that succeed one after the other
and that turn the database into what the migration is meant to achieve.  Missing: differences that
`Comparable` and `Passable` exclude. -/
theorem pg_files_converge_partial (hv : e.version = src.versionNums)
    (hcoll : e.coll = src.defaultCollation) (hs : Described src) (hd : Described dest)
    (hc : Comparable e.cur e.coll (lowerThan e.version [12]) drop src dest)
    (hS : Consistent (dbOf e.cur e.coll src)) (hG : Consistent (goalDb e.cur e.coll drop src dest))
    (hp : Passable (dbOf e.cur e.coll src) (goalDb e.cur e.coll drop src dest))
    (he : Expressible e.cur e.coll src dest) :
    ∃ sts db, ((sqlSteps e (pgEvents src dest drop)).mapM (readStep e.cur)).map List.flatten = some sts ∧
      Runs (dbOf e.cur e.coll src) sts db ∧ Reached e.cur e.coll drop src dest db := by
  obtain ⟨db, h1, h2⟩ := pg_plan_converges_partial hv hcoll hs hd hc hS hG hp
  exact ⟨_, db, sqlSteps_read_back e _ (pg_plan_text hv hcoll hs hd hc he), h1, h2⟩

/-! ## Names of files -/

/-- The end of the name of a migration. -/
def Forward (n : Str) : Prop :=
  ∃ a, Safe a ∧ a.head? = some '_' ∧ (n = a ++ b!".tx.sql" ∨ n = a ++ b!".txoff.sql" ∨
    n = a ++ b!"s.sql")

/-- A step: a file, and perhaps one that undoes it. -/
def StepShape (st : List File) : Prop :=
  ∃ f r, st = f :: r ∧ Forward f.1 ∧
    (r = [] ∨ ∃ a c d, f.1 = a ++ b!".txoff.sql" ∧ r = [(a ++ b!".undo.sql", d)] ∧ c = f.2)

theorem forward_safe {n : Str} (h : Forward n) : Safe n ∧ n.head? = some '_' := by
  obtain ⟨a, h1, h2, h3⟩ := h
  have hh : ∀ s : Str, (a ++ s).head? = some '_' := by
    intro s
    cases a with
    | nil => cases h2
    | cons x a => exact h2
  rcases h3 with rfl | rfl | rfl
  · exact ⟨safe_append h1 (by decide), hh _⟩
  · exact ⟨safe_append h1 (by decide), hh _⟩
  · exact ⟨safe_append h1 (by decide), hh _⟩

theorem forward_ends {n : Str} (h : Forward n) : EndsWith n b!".sql" ∧ ¬ EndsWith n b!".undo.sql" := by
  obtain ⟨a, -, -, h3⟩ := h
  rcases h3 with rfl | rfl | rfl
  · refine ⟨⟨a ++ b!".tx", by simp⟩, ?_⟩
    rintro ⟨c, hc⟩
    have := congrArg List.reverse hc
    simp at this
  · refine ⟨⟨a ++ b!".txoff", by simp⟩, ?_⟩
    rintro ⟨c, hc⟩
    have := congrArg List.reverse hc
    simp at this
  · refine ⟨⟨a ++ b!"s", by simp⟩, ?_⟩
    rintro ⟨c, hc⟩
    have := congrArg List.reverse hc
    simp at this

theorem safe_opt {p : Prop} [Decidable p] {a : Str} (h : Safe a) :
    Safe (if p then noSpaces a ++ b!"_" else []) := by
  split
  · exact safe_append (noSpaces_safe h) (by decide)
  · decide

theorem safe_fkeyName {c : Constraint} (h1 : Safe c.tableSchema) (h2 : Safe c.tableName)
    (h3 : Safe c.referencesSchema) (h4 : Safe c.referencesTable) : Safe (fkeyName e c) :=
  safe_append (safe_append (safe_append (safe_append (safe_opt h1) (noSpaces_safe h2)) (by decide))
    (safe_opt h3)) (noSpaces_safe h4)

theorem tx_shape {a b : Str} (h : Safe b) (ha : Safe a) (hh : a.head? = some '_') (c : Str)
    {n : Str} (hn : n = a ++ b ++ b!".tx.sql") : StepShape [(n, c)] := by
  refine ⟨_, [], rfl, ⟨a ++ b, safe_append ha h, ?_, Or.inl hn⟩, Or.inl rfl⟩
  cases a with
  | nil => cases hh
  | cons x a => exact hh

theorem create_shape {x : Index} (h : Safe x.indexName) : StepShape (createIndexStep e x) := by
  refine ⟨_, _, rfl, ⟨b!"_create_" ++ noSpaces x.indexName, safe_append (by decide) (noSpaces_safe h), rfl,
    Or.inr (Or.inl rfl)⟩, Or.inr ⟨b!"_create_" ++ noSpaces x.indexName, _, _, rfl, rfl, rfl⟩⟩

section
variable {pre : Str} (hs : Described src) (hd : Described dest) (hn : Nameable pre src dest)

include hs hn in
theorem gone_safe {c : Constraint} (hc : c ∈ (goneFkeys src dest).map (·.2)) :
    Safe (fkeyName e c) := by
  rw [goneFkeys_eq] at hc
  obtain ⟨t, h1, h2, h3⟩ := mem_constraintsOf hs hc
  obtain ⟨h4, h5⟩ := tab_some h1
  rw [Bool.and_eq_true] at h3
  have h6 := hn.tables t (List.mem_append_left _ h4)
  have h7 := hn.fkeys t (List.mem_append_left _ h4) c (find_some h2).1 h3.1
  refine safe_fkeyName ?_ ?_ h7.1 h7.2
  · have e1 : t.tableSchema = c.tableSchema := congrArg Prod.fst h5
    rw [← e1]; exact h6.1
  · have e1 : t.tableName = c.tableName := congrArg Prod.snd h5
    rw [← e1]; exact h6.2

include hd hn in
theorem new_safe {old : Bool} {c : Constraint} (hc : c ∈ (newFkeys src dest old).map (·.2)) :
    Safe (fkeyName e c) := by
  rw [newFkeys_eq] at hc
  obtain ⟨t, h1, h2, h3⟩ := mem_constraintsOf hd hc
  obtain ⟨h4, h5⟩ := tab_some h1
  simp only [Bool.and_eq_true] at h3
  have h6 := hn.tables t (List.mem_append_right _ h4)
  have h7 := hn.fkeys t (List.mem_append_right _ h4) c (find_some h2).1 h3.2.1
  refine safe_fkeyName ?_ ?_ h7.1 h7.2
  · have e1 : t.tableSchema = c.tableSchema := congrArg Prod.fst h5
    rw [← e1]; exact h6.1
  · have e1 : t.tableName = c.tableName := congrArg Prod.snd h5
    rw [← e1]; exact h6.2

include hs hd hn in
theorem steps_shape (hv : e.version = src.versionNums) (hcoll : e.coll = src.defaultCollation) :
    ∀ st ∈ sqlSteps e (pgEvents src dest drop), StepShape st := by
  intro st hst
  simp only [sqlSteps, List.mem_append] at hst
  have hfirst : ∀ {cs : List Constraint} {g : List Constraint}, g ∈ groupFkeys cs →
      firstFkey g ∈ cs := fun hg => groupFkeys_mem hg (firstFkey_mem (groupFkeys_ne_nil hg))
  rcases hst with ((((h | h) | h) | h) | h) | h
  · obtain ⟨g, hg, rfl⟩ := List.mem_map.1 h
    have h1 := (dropFkeys_pg hs.ok hd.ok drop).mem_iff.1 (hfirst hg)
    cases drop with
    | false => cases h1
    | true =>
      rw [if_pos rfl] at h1
      exact tx_shape (a := b!"_drop_") (b := fkeyName e (firstFkey g) ++ b!"_fkeys")
        (safe_append (gone_safe hs hn h1) (by decide)) (by decide) rfl _ (by simp)
  · unfold schemaSteps at h
    dsimp only at h
    split at h
    · cases h
    · rw [List.mem_singleton] at h
      subst h
      exact ⟨_, [], rfl, ⟨b!"_schema", by decide, rfl, Or.inr (Or.inr rfl)⟩, Or.inl rfl⟩
  · unfold tableSteps at h
    dsimp only at h
    split at h
    · cases h
    · rw [List.mem_singleton] at h
      subst h
      exact ⟨_, [], rfl, ⟨b!"_table", by decide, rfl, Or.inr (Or.inr rfl)⟩, Or.inl rfl⟩
  · obtain ⟨a, ha, h⟩ := List.mem_flatMap.1 h
    obtain ⟨p, hp, rfl⟩ := mem_alters pg_server hs.ok hd.ok ha
    obtain ⟨h1, h2, -⟩ := mem_commonTables hp
    have hch := changes hs.ok hd.ok e hv hcoll drop hp (hs.primary p.1 h1) (liveTables_ok hs.ok h1)
    have hal : Safe (alterName e p.2) := safe_append
      (safe_opt (hn.tables p.2 (List.mem_append_right _ h2)).1)
      (noSpaces_safe (hn.tables p.2 (List.mem_append_right _ h2)).2)
    unfold alterTableSteps at h
    simp only [List.mem_append] at h
    rcases h with ((h | h) | h) | h
    · rw [List.mem_singleton] at h
      subst h
      exact tx_shape (a := b!"_alter_") hal (by decide) rfl _ rfl
    · split at h
      · cases h
      · rw [List.mem_singleton] at h
        subst h
        exact tx_shape (a := b!"_validate_") (b := alterName e p.2 ++ b!"_not_null")
          (safe_append hal (by decide)) (by decide) rfl _ (by
            show b!"_validate_" ++ alterName e p.2 ++ b!"_not_null.tx.sql" = _
            simp)
    · obtain ⟨x, hx, rfl⟩ := List.mem_map.1 h
      rw [show (Sqddl.alterTableOf .postgres (diffEnv src dest drop) p.1 p.2).createIndexes = _ from
        hch.createIndexes] at hx
      exact create_shape (hn.indexes p.2 h2 x (List.mem_filter.1 hx).1)
    · obtain ⟨x, hx, h⟩ := List.mem_flatMap.1 h
      rw [show (Sqddl.alterTableOf .postgres (diffEnv src dest drop) p.1 p.2).addConstraints = _ from
        hch.addConstraints] at hx
      obtain ⟨h3, h4⟩ := List.mem_filter.1 hx
      rw [Bool.and_eq_true] at h4
      have h5 := hn.keys p.2 h2 x h3 h4.1
      simp only [List.mem_cons, List.not_mem_nil, or_false] at h
      rcases h with rfl | rfl
      · exact create_shape h5
      · exact tx_shape (a := b!"_add_") (noSpaces_safe h5) (by decide) rfl _ rfl
  · obtain ⟨g, hg, rfl⟩ := List.mem_map.1 h
    have h1 := hfirst hg
    rw [addFastFkeys_pg hs.ok hd.ok] at h1
    exact tx_shape (a := b!"_add_") (b := fkeyName e (firstFkey g) ++ b!"_fkeys")
        (safe_append (new_safe hd hn h1) (by decide)) (by decide) rfl _ (by simp)
  · obtain ⟨g, hg, h⟩ := List.mem_flatMap.1 h
    have h1 := hfirst hg
    rw [addFkeys_pg hs.ok hd.ok] at h1
    simp only [List.mem_cons, List.not_mem_nil, or_false] at h
    rcases h with rfl | rfl
    · exact tx_shape (a := b!"_add_") (b := fkeyName e (firstFkey g) ++ b!"_fkeys")
        (safe_append (new_safe hd hn h1) (by decide)) (by decide) rfl _ (by simp)
    · exact tx_shape (a := b!"_validate_") (b := fkeyName e (firstFkey g) ++ b!"_fkeys")
        (safe_append (new_safe hd hn h1) (by decide)) (by decide) rfl _ (by simp)

include hs hd hn in
theorem steps_ok (hv : e.version = src.versionNums) (hcoll : e.coll = src.defaultCollation) :
    StepsOk pre (sqlSteps e (pgEvents src dest drop)) ∧
    ∀ st ∈ sqlSteps e (pgEvents src dest drop), ∀ f ∈ st, Safe f.1 := by
  have hshape := steps_shape (drop := drop) hs hd hn hv hcoll
  have hsafe : ∀ st ∈ sqlSteps e (pgEvents src dest drop), ∀ f ∈ st,
      Safe f.1 ∧ f.1.head? = some '_' := by
    intro st hst f hf
    obtain ⟨g, r, rfl, h1, h2⟩ := hshape st hst
    rcases List.mem_cons.1 hf with rfl | hf
    · exact forward_safe h1
    · rcases h2 with rfl | ⟨a, c, d, h3, rfl, -⟩
      · cases hf
      · rw [List.mem_singleton] at hf
        subst hf
        have h4 := forward_safe h1
        rw [h3] at h4
        have hd : ∀ c ∉ b!".undo.sql", c ∉ a ++ b!".txoff.sql" → c ∉ a ++ b!".undo.sql" := by
          intro c hc h5 h6
          rcases List.mem_append.1 h6 with h6 | h6
          · exact h5 (List.mem_append_left _ h6)
          · exact hc h6
        refine ⟨⟨hd _ (by decide) h4.1.1, hd _ (by decide) h4.1.2.1, hd _ (by decide) h4.1.2.2⟩, ?_⟩
        have h5 := h4.2
        cases a with
        | nil => cases h5
        | cons x a => exact h5
  refine ⟨⟨hn.pre.1, fun st hst f hf => ⟨(hsafe st hst f hf).1.1, (hsafe st hst f hf).2⟩, ?_, ?_⟩,
    fun st hst f hf => (hsafe st hst f hf).1⟩
  · intro st hst
    obtain ⟨g, r, rfl, h1, h2⟩ := hshape st hst
    refine ⟨g, r, rfl, (forward_ends h1).1, (forward_ends h1).2, ?_⟩
    intro f hf
    rcases h2 with rfl | ⟨a, c, d, h3, rfl, -⟩
    · cases hf
    · rw [List.mem_singleton] at hf
      subst hf
      exact ⟨a, rfl⟩
  · intro st hst
    obtain ⟨g, r, rfl, h1, h2⟩ := hshape st hst
    rcases h2 with rfl | ⟨a, c, d, h3, rfl, -⟩
    · exact List.pairwise_singleton _ _
    · rw [List.pairwise_cons]
      refine ⟨?_, List.pairwise_singleton _ _⟩
      intro f hf
      rw [List.mem_singleton] at hf
      subst hf
      rw [h3]
      exact append_lt a (by decide)

/-- The statements of files that are run one after the other. -/
def readFiles (cur : Str) (files : Str → Option Str) (fs : List Str) : Option (List PgText.Stmt) :=
  (fs.mapM fun f => (files f).bind (PgText.runScript (keywords .postgres) cur)).map List.flatten

/-- What a run of `migrate` reads that does not look at the history. -/
theorem skip_reads {cur : Str} {fs : List (Str × Str)} {sts : List PgText.Stmt}
    (hr : readFiles cur (fun f => fs.lookup f) (sortAndFilter (fs.map (·.1))) = some sts)
    (hnd : (fs.map (·.1)).Nodup) (hpl : ∀ f ∈ fs.map (·.1), MigrateSpec.PlainName .postgres f)
    (cfg : Migrate.Cfg) (hcfg : cfg.dialect = .postgres) (hskip : cfg.skipHistory = true)
    (env : Migrate.Env) (hfiles : ∀ f, env.files f = fs.lookup f) (db : Migrate.DB)
    (hlock : ∀ t, env.res t ≠ .lock)
    (hok : (Migrate.migrate cfg env (fs.map (·.1)) (Migrate.start db)).1 = .ok) :
    readFiles cur env.files (MigrateSpec.execs
      (Migrate.migrate cfg env (fs.map (·.1)) (Migrate.start db)).2.log) = some sts := by
  rw [Migrate.migrate_ok_execs_eq cfg env (fs.map (·.1)) db hnd (by rw [hcfg]; exact hpl) hlock hok,
    Migrate.pending_skip hskip, funext hfiles]
  exact hr

variable {isFloat : Str → Bool}

include hs hd hn in
/-- The files that `migrate` picks up contain the statements of the migration. -/
theorem forward_reads_back
    (hc : Comparable src.currentSchema src.defaultCollation (lowerThan src.versionNums [12]) drop src dest)
    (he : Expressible src.currentSchema src.defaultCollation src dest) :
    readFiles src.currentSchema (fun f => (migration isFloat pre src dest drop).1.lookup f)
      (sortAndFilter ((migration isFloat pre src dest drop).1.map (·.1))) =
    some (plan ⟨src.versionNums, src.currentSchema, src.defaultCollation, isFloat⟩
      (pgEvents src dest drop)) := by
  let e : Env := ⟨src.versionNums, src.currentSchema, src.defaultCollation, isFloat⟩
  have hok := (steps_ok (e := e) (drop := drop) hs hd hn rfl rfl).1
  have e1 : (migration isFloat pre src dest drop).1 = numbered pre (sqlSteps e (pgEvents src dest drop)) :=
    rfl
  rw [e1, numbered_forward hok]
  unfold readFiles
  rw [mapM_bind _ _ _ _ (lookup_forward hok), List.mapM_map]
  exact sqlSteps_read_back e (pgEvents src dest drop) (pg_plan_text rfl rfl hs hd hc he)

include hs hd hn in
theorem files_plain (f : Str) (hf : f ∈ (migration isFloat pre src dest drop).1.map (·.1)) :
    MigrateSpec.PlainName .postgres f := by
  obtain ⟨g, hg, rfl⟩ := List.mem_map.1 hf
  have hok := steps_ok (e := ⟨src.versionNums, src.currentSchema, src.defaultCollation, isFloat⟩)
    (drop := drop) hs hd hn rfl rfl
  have : Safe g.1 := by
    obtain ⟨n, st, hst, x, hx, e⟩ := numbered_mem hg
    rw [e]
    refine safe_append (safe_append (safe_append hn.pre (by decide)) ?_) (hok.2 st hst x hx)
    refine ⟨?_, ?_, ?_⟩ <;> intro h <;> have := pad2_isDigit _ _ h <;> revert this <;> decide
  refine ⟨?_, fun h => by cases h⟩
  rintro ⟨a, c, b, e⟩
  exact this.2.1 (e ▸ by simp)

/-- C67, Postgres, `generate` followed by `migrate`: fewer than 100 generated files are picked up from
a directory that contains nothing else, and a run of `migrate` that succeeds without lock timeouts
has executed statements that the database accepts and that turn it into the described one.  Missing:
differences that `Comparable` and `Passable` exclude. -/
theorem pg_generate_migrate_converges_partial
    (hc : Comparable src.currentSchema src.defaultCollation (lowerThan src.versionNums [12]) drop src dest)
    (hS : Consistent (dbOf src.currentSchema src.defaultCollation src))
    (hG : Consistent (goalDb src.currentSchema src.defaultCollation drop src dest))
    (hp : Passable (dbOf src.currentSchema src.defaultCollation src)
      (goalDb src.currentSchema src.defaultCollation drop src dest))
    (hs : Described src) (hd : Described dest)
    (he : Expressible src.currentSchema src.defaultCollation src dest)
    (hn : Nameable pre src dest) {names : List Str}
    (hl : Listing (migration isFloat pre src dest drop).1 names) (hlen : names.length < 100)
    (cfg : Migrate.Cfg) (hcfg : cfg.dialect = .postgres) (env : Migrate.Env)
    (hfiles : ∀ f, env.files f = (migration isFloat pre src dest drop).1.lookup f) (db : Migrate.DB)
    (hnew : ∀ f ∈ names, db.hist f = none) (hlock : ∀ t, env.res t ≠ .lock)
    (hok : (Migrate.migrate cfg env names (Migrate.start db)).1 = .ok) :
    ∃ sts db', readFiles src.currentSchema env.files (MigrateSpec.execs
        (Migrate.migrate cfg env names (Migrate.start db)).2.log) = some sts ∧
      Runs (dbOf src.currentSchema src.defaultCollation src) sts db' ∧
      Reached src.currentSchema src.defaultCollation drop src dest db' := by
  let e : Env := ⟨src.versionNums, src.currentSchema, src.defaultCollation, isFloat⟩
  obtain ⟨db', h1, h2⟩ := pg_plan_converges_partial (e := e) rfl rfl hs hd hc hS hG hp
  refine ⟨_, db', ?_, h1, h2⟩
  have hp : ∀ f ∈ names, MigrateSpec.PlainName cfg.dialect f := by
    intro f hf
    rw [hcfg]
    exact files_plain hs hd hn f (hl.perm.mem_iff.1 hf)
  have hst := (steps_ok (e := e) (drop := drop) hs hd hn rfl rfl).1
  have e1 : (migration isFloat pre src dest drop).1 = numbered pre (sqlSteps e (pgEvents src dest drop)) :=
    rfl
  have hnd : names.Nodup := hl.perm.nodup_iff.2 (by rw [e1]; exact hst.nodup)
  have hlen' : (sqlSteps e (pgEvents src dest drop)).length < 100 := by
    refine Nat.lt_of_le_of_lt ?_ hlen
    rw [hl.perm.length_eq, List.length_map, e1]
    exact numbered_length hst.ne_nil
  have hupd : ∀ f ∈ names, ¬ MigrateSpec.UpToDate env db.hist f := by
    rintro f hf ⟨r, hr, _⟩
    rw [hnew f hf] at hr
    cases hr
  rw [Migrate.migrate_ok_execs_eq cfg env names db hnd hp hlock hok, Migrate.pending_all hupd,
    show names = (migration isFloat pre src dest drop).1.map (·.1) from (listed_in_order hst hlen' hl).1]
  have := forward_reads_back (isFloat := isFloat) (drop := drop) hs hd hn hc he
  rw [funext hfiles]
  exact this

/-- C67, Postgres, `automigrate`: however many files there are, a run that succeeds without lock
timeouts has executed statements that the database accepts and that turn it into the described one.
Missing: differences that `Comparable` and `Passable` exclude. -/
theorem pg_automigrate_converges_partial
    (hc : Comparable src.currentSchema src.defaultCollation (lowerThan src.versionNums [12]) drop src dest)
    (hS : Consistent (dbOf src.currentSchema src.defaultCollation src))
    (hG : Consistent (goalDb src.currentSchema src.defaultCollation drop src dest))
    (hp : Passable (dbOf src.currentSchema src.defaultCollation src)
      (goalDb src.currentSchema src.defaultCollation drop src dest))
    (hs : Described src) (hd : Described dest)
    (he : Expressible src.currentSchema src.defaultCollation src dest)
    (hn : Nameable pre src dest)
    (cfg : Migrate.Cfg) (hcfg : cfg.dialect = .postgres) (hskip : cfg.skipHistory = true)
    (env : Migrate.Env)
    (hfiles : ∀ f, env.files f = (migration isFloat pre src dest drop).1.lookup f) (db : Migrate.DB)
    (hlock : ∀ t, env.res t ≠ .lock)
    (hok : (Migrate.migrate cfg env ((migration isFloat pre src dest drop).1.map (·.1))
      (Migrate.start db)).1 = .ok) :
    ∃ sts db', readFiles src.currentSchema env.files (MigrateSpec.execs
        (Migrate.migrate cfg env ((migration isFloat pre src dest drop).1.map (·.1))
          (Migrate.start db)).2.log) = some sts ∧
      Runs (dbOf src.currentSchema src.defaultCollation src) sts db' ∧
      Reached src.currentSchema src.defaultCollation drop src dest db' := by
  let e : Env := ⟨src.versionNums, src.currentSchema, src.defaultCollation, isFloat⟩
  obtain ⟨db', h1, h2⟩ := pg_plan_converges_partial (e := e) rfl rfl hs hd hc hS hG hp
  have hst := (steps_ok (e := e) (drop := drop) hs hd hn rfl rfl).1
  exact ⟨_, db', skip_reads (forward_reads_back (drop := drop) hs hd hn hc he) hst.nodup
    (files_plain hs hd hn) cfg hcfg hskip env hfiles db hlock hok, h1, h2⟩

end

end

end PgSpec
