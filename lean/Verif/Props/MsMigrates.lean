import Verif.Spec.MsExpress
import Verif.Props.MsConverges
import Verif.Props.PgMigrates

/-!
# Generating a SQL Server migration and migrating (C67)
-/

namespace MsSpec
open SqlSpec Sqddl DdlText DdlSpec FileSpec Sqddl.Files Sqddl.Sqlserver
open EngineSpec (Safe safe_append mapM_bind schema_of_table find_some hasSchema_iff findCon
  mem_commonColumns_iff)
open MsText (Act Differs)
open PgText (newFkeys goneFkeys)
open PgSpec (tab tab_some)
open CatalogSpec (keyConstraint foreignKey liveColumns liveConstraints liveIndexes hasColumn hasIndex
  hasConstraint commonTables TableOk liveTables liveSchemas hasTable hasSchema hasTableConstraint)

/-! ## The texts of the migration -/

theorem lone_cons {a : Char} {s : Str} (h : a ≠ '\'' ∨ s.head? ≠ some '\'') (hs : lone s = true) :
    lone (a :: s) = true := by
  cases s with
  | nil => rfl
  | cons b s =>
    simp only [lone, Bool.and_eq_true, Bool.not_eq_true', Bool.and_eq_false_iff, beq_eq_false_iff_ne]
    refine ⟨?_, hs⟩
    rcases h with h | h
    · exact Or.inl h
    · exact Or.inr fun e => h (by rw [e]; rfl)

theorem lone_tail {a : Char} {s : Str} (h : lone (a :: s) = true) : lone s = true := by
  cases s with
  | nil => rfl
  | cons b s =>
    simp only [lone, Bool.and_eq_true] at h
    exact h.2

theorem lone_head {a : Char} {s : Str} (h : lone (a :: s) = true) :
    a ≠ '\'' ∨ s.head? ≠ some '\'' := by
  cases s with
  | nil => exact Or.inr (by simp)
  | cons b s =>
    simp only [lone, Bool.and_eq_true, Bool.not_eq_true', Bool.and_eq_false_iff,
      beq_eq_false_iff_ne] at h
    rcases h.1 with h | h
    · exact Or.inl h
    · exact Or.inr fun e => h (by simpa using e)

theorem lone_append {a b : Str} (ha : lone a = true) (hb : lone b = true)
    (h : b.head? ≠ some '\'') : lone (a ++ b) = true := by
  induction a with
  | nil => exact hb
  | cons c a ih =>
    refine lone_cons ?_ (ih (lone_tail ha))
    rcases lone_head ha with h1 | h1
    · exact Or.inl h1
    · refine Or.inr ?_
      cases a with
      | nil => exact h
      | cons d a => exact h1

theorem head_escapeQuote {q : Char} (hq : q ≠ '\'') {s : Str} (h : s.head? ≠ some '\'') :
    (escapeQuote q s).head? ≠ some '\'' := by
  fun_cases escapeQuote q s <;> grind

theorem lone_escapeQuote {q : Char} (hq : q ≠ '\'') {s : Str} (h : lone s = true) :
    lone (escapeQuote q s) = true := by
  fun_induction escapeQuote q s with
  | case1 => rfl
  | case2 => exact lone_cons (Or.inl hq) rfl
  | case3 c hc => rfl
  | case4 d ih => exact lone_cons (Or.inl hq) (lone_cons (Or.inl hq) (ih (lone_tail h)))
  | case5 d c hc ih =>
    refine lone_cons ?_ (ih (lone_tail h))
    exact (lone_head h).imp id (head_escapeQuote hq)
  | case6 e r ih => exact lone_cons (Or.inl hq) (lone_cons (Or.inl hq) (ih (lone_tail (lone_tail h))))
  | case7 d e r hd ih => exact lone_cons (Or.inl hq) (lone_cons (Or.inl hq) (ih (lone_tail h)))
  | case8 c d e r hc ih =>
    refine lone_cons ?_ (ih (lone_tail h))
    exact (lone_head h).imp id (head_escapeQuote hq)

theorem lone_quoteIdentifier {s : Str} (h : lone s = true) :
    lone (quoteIdentifier .sqlserver s) = true := by
  unfold quoteIdentifier
  split
  · exact lone_cons (Or.inl (by decide))
      (lone_append (lone_escapeQuote (by decide) h) rfl (by decide))
  · exact h

theorem noPair {s : Str} (h : lone s = true) : ¬ HasInnerPair '\'' s := by
  rintro ⟨a, c, b, rfl⟩
  induction a with
  | nil => exact (lone_head h).elim (fun h => h rfl) (fun h => h rfl)
  | cons d a ih => exact ih (lone_tail h)

theorem schemaText {n : Str} (h : SchemaName n) : SchemaText n :=
  ⟨h.1, noPair h.2, noPair (lone_quoteIdentifier h.2)⟩

theorem column_text {c : Column} (h : AlterColumnText c) : ColumnText c where
  name := h.name.1
  type := h.type.1
  flat := h.type.2.1
  quiet := h.type.2.2.1
  some := h.type.2.2.2
  collation := h.collation
  default := by
    intro h1
    have hcl := default_classify .sqlserver c.columnDefault (fun e => by cases e)
    simp only at hcl
    generalize normalizeColumnDefault .sqlserver c.columnDefault = r at hcl h1 ⊢
    rcases hcl with ⟨-, rfl⟩ | ⟨-, rfl⟩ | ⟨h3, rfl⟩ | ⟨-, rfl⟩ | rfl
    · decide +kernel
    · decide +kernel
    · simp only [List.mem_cons, List.not_mem_nil, or_false] at h3
      rcases h3 with h3 | h3 | h3 <;> rw [h3] <;> decide +kernel
    · decide +kernel
    · exact h.default h1

section
variable {e : Env} {drop : Bool} {src dest : Catalog} (hcoll : e.coll = src.defaultCollation)
  (hs : Described src) (hd : Described dest) (hc : Comparable e.cur e.coll drop src dest)

theorem schema_name (he : Expressible e.cur e.coll src dest) {t : Table}
    (h : t ∈ liveTables src ∨ t ∈ liveTables dest) (hs : CatalogSpec.Ok src)
    (hd : CatalogSpec.Ok dest) : SchemaName t.tableSchema := by
  rcases h with h | h
  · obtain ⟨s, h1, h2⟩ := List.mem_map.1 (hasSchema_iff.1 (schema_of_table hs h))
    rw [← h2]
    exact he.schemas s (List.mem_append_left _ h1)
  · obtain ⟨s, h1, h2⟩ := List.mem_map.1 (hasSchema_iff.1 (schema_of_table hd h))
    rw [← h2]
    exact he.schemas s (List.mem_append_right _ h1)

/-- A foreign key of the first version, with its table. -/
def OldFkey (src : Catalog) (c : Constraint) : Prop :=
  ∃ t ∈ liveTables src, t.tableSchema = c.tableSchema ∧ t.tableName = c.tableName ∧
    c ∈ liveConstraints t ∧ foreignKey c = true

include hs in
theorem gone_old {c : Constraint} (h : c ∈ (goneFkeys src dest).map (·.2)) : OldFkey src c := by
  rw [PgSpec.goneFkeys_eq] at h
  obtain ⟨t, h1, h2, h3⟩ := mem_constraintsOf hs h
  obtain ⟨h4, h5⟩ := tab_some h1
  rw [Bool.and_eq_true] at h3
  exact ⟨t, h4, congrArg Prod.fst h5, congrArg Prod.snd h5, (find_some h2).1, h3.1⟩

include hcoll hs hd hc in
theorem redone_old {c : Constraint} (h : c ∈ (redone (diffEnv src dest drop) src dest).map (·.2)) :
    OldFkey src c := by
  obtain ⟨s, t, h1, -, h2, h3, -⟩ := redone_facts hcoll hs hd hc h
  obtain ⟨h4, h5⟩ := tab_some h1
  exact ⟨s, h4, congrArg Prod.fst h5, congrArg Prod.snd h5, (find_some h2).1, h3⟩

include hd in
theorem new_dest {old : Bool} {c : Constraint} (h : c ∈ (newFkeys src dest old).map (·.2)) :
    OldFkey dest c := by
  rw [PgSpec.newFkeys_eq] at h
  obtain ⟨t, h1, h2, h3⟩ := mem_constraintsOf hd h
  obtain ⟨h4, h5⟩ := tab_some h1
  simp only [Bool.and_eq_true] at h3
  exact ⟨t, h4, congrArg Prod.fst h5, congrArg Prod.snd h5, (find_some h2).1, h3.2.1⟩

include hs hd in
theorem fkey_text (he : Expressible e.cur e.coll src dest) {c : Constraint}
    (h : OldFkey src c ∨ OldFkey dest c) : FkeyText e c := by
  rcases h with ⟨t, h1, h2, h3, h4, -⟩ | ⟨t, h1, h2, h3, h4, -⟩
  · rw [FkeyText, ← h2, ← h3]
    exact ⟨⟨fun _ => (schema_name he (Or.inl h1) hs.ok hd.ok).1, (he.names t (List.mem_append_left _ h1)).1⟩,
      (he.old t h1).2.1 c h4⟩
  · rw [FkeyText, ← h2, ← h3]
    exact ⟨⟨fun _ => (schema_name he (Or.inr h1) hs.ok hd.ok).1, (he.names t (List.mem_append_right _ h1)).1⟩,
      ((he.tables t h1).constraints c h4).1⟩

include hs in
theorem old_named {c : Constraint} (h : OldFkey src c) : c.constraintName ≠ [] := by
  obtain ⟨t, h1, -, -, h4, -⟩ := h
  exact EngineSpec.named (liveTables_ok hs.ok h1) h4

include hcoll hs hd hc in
theorem ms_plan_text (he : Expressible e.cur e.coll src dest) {fk : MssqlFkeys}
    (h2 : fk.dropFkeys.groups.flatten.Perm ((if drop then (goneFkeys src dest).map (·.2) else []) ++
      (redone (diffEnv src dest drop) src dest).map (·.2)))
    (h3 : fk.addFastFkeys.groups.flatten.Perm ((newFkeys src dest false).map (·.2)))
    (h4 : fk.addFkeys.groups.flatten.Perm ((newFkeys src dest true).map (·.2) ++
      (redone (diffEnv src dest drop) src dest).map (·.2))) :
    PlanText e (mssqlEvents src dest drop) fk where
  dropFkeys := by
    intro g hg c hcg
    have h := h2.mem_iff.1 (List.mem_flatten.2 ⟨g, hg, hcg⟩)
    have ho : OldFkey src c := by
      rcases List.mem_append.1 h with h | h
      · cases drop with
        | false => cases h
        | true => exact gone_old hs h
      · exact redone_old hcoll hs hd hc h
    have ht := fkey_text hs hd he (Or.inl ho)
    exact ⟨ht.1, ht.2.name (old_named hs ho)⟩
  dropSchemas := by
    intro s h
    have h1 : (mssqlEvents src dest drop).filterMap Ev.dropSchema? = _ :=
      dropSchemas_exact ms_server hs.ok hd.ok drop
    rw [h1] at h
    cases drop with
    | false => cases h
    | true =>
      obtain ⟨h5, h6⟩ := List.mem_filter.1 h
      rw [Bool.and_eq_true, Bool.not_eq_true'] at h6
      obtain ⟨h7, h8, h9⟩ := he.dropped s h5 h6.2
      exact ⟨(he.schemas s (List.mem_append_left _ h5)).1, h7, h8, h9⟩
  createSchemas := by
    intro n h
    have h1 : (mssqlEvents src dest drop).filterMap Ev.createSchema? = _ :=
      createSchemas_exact ms_server hs.ok hd.ok drop
    rw [h1] at h
    obtain ⟨s, h2, rfl⟩ := List.mem_map.1 h
    exact schemaText (he.schemas s (List.mem_append_right _ (List.mem_filter.1 h2).1))
  dropTables := by
    intro t h
    have h1 : (mssqlEvents src dest drop).filterMap Ev.dropTable? = _ :=
      dropTables_exact ms_server hs.ok hd.ok drop
    rw [h1] at h
    cases drop with
    | false => cases h
    | true =>
      rw [if_pos rfl, mem_dropTables_iff] at h
      exact ⟨fun _ => (schema_name he (Or.inl h.1) hs.ok hd.ok).1,
        (he.names t (List.mem_append_left _ h.1)).1⟩
  createTables := by
    intro t h
    have h1 : (mssqlEvents src dest drop).filterMap Ev.createTable? = _ :=
      createTables_exact ms_server hs.ok hd.ok drop
    rw [h1, List.mem_filter] at h
    exact ⟨he.tables t h.1, he.indexes t h.1⟩
  alters := by
    intro a ha
    obtain ⟨p, hp, rfl⟩ := mem_alters ms_server hs.ok hd.ok ha
    obtain ⟨h5, h6, -⟩ := mem_commonTables hp
    have hok := pairOk hs hd hc hp
    have hok' := hok
    rw [hcoll] at hok
    have hch : Changes e.cur src.defaultCollation drop p.1 p.2
      (Sqddl.alterTableOf .sqlserver (diffEnv src dest drop) p.1 p.2) _ _ _ := changes hs.ok hd.ok hp hok
    have htext := he.tables p.2 h6
    have hold := he.old p.1 h5
    have hsch : alterSchema e p.2 = p.2.tableSchema := by
      unfold alterSchema
      rw [if_pos hok.schema]
    have hsn := schema_name he (Or.inr h6) hs.ok hd.ok
    have htn := he.names p.2 (List.mem_append_right _ h6)
    have hcn : ∀ x ∈ liveConstraints p.1, PlainName .sqlserver x.constraintName := fun x hx =>
      (hold.2.1 x hx).name (EngineSpec.named (liveTables_ok hs.ok h5) hx)
    exact {
      schema := by
        rw [hch.destTable, hsch]
        exact hsn.1
      table := by
        rw [hch.destTable]
        exact htn.1
      dropIndexes := by
        intro x hx
        rw [hch.dropIndexes] at hx
        have h7 : x ∈ liveIndexes p.1 := by
          rcases List.mem_append.1 hx with hx | hx
          · unfold PgSpec.lostIdxs at hx
            split at hx
            · exact (List.mem_filter.1 hx).1
            · cases hx
          · exact ((hch.ri x).1 hx).1
        obtain ⟨e1, e2⟩ := hok.srcIndexes x (List.mem_filter.1 h7).1
        rw [e1, e2]
        exact ⟨⟨fun _ => (schema_name he (Or.inl h5) hs.ok hd.ok).1,
          (he.names p.1 (List.mem_append_left _ h5)).1⟩, (hold.2.2 x h7).2.name⟩
      dropConstraints := by
        intro x hx
        rw [hch.dropConstraints] at hx
        rcases List.mem_append.1 hx with hx | hx
        · exact hcn x ((hch.dk x).1 hx).1
        · exact hcn x ((hch.rk x).1 hx).1
      dropColumns := by
        intro x hx
        rw [hch.dropColumns] at hx
        unfold PgSpec.lostCols at hx
        split at hx
        · exact hold.1 x (List.mem_filter.1 hx).1
        · cases hx
      addColumns := by
        intro x hx
        rw [hch.addColumns] at hx
        exact htext.columns x (List.mem_filter.1 hx).1
      alterColumns := by
        intro q hq
        rw [hch.alterColumns] at hq
        obtain ⟨h7, h8⟩ := changed_differs hq
        have h9 := he.columns p hp q h7 h8
        refine ⟨column_text h9, fun _ => ?_⟩
        rw [hch.destTable]
        refine ⟨?_, noPair htn.2, noPair h9.name.2, noPair ?_⟩
        · rw [hsch]; exact noPair hsn.2
        · rw [hsch]
          unfold tableSql Sqddl.Wipe.qualified
          split
          · rw [List.append_assoc]
            exact lone_append (lone_quoteIdentifier hsn.2)
              (lone_cons (Or.inl (by decide)) (lone_quoteIdentifier htn.2)) (by simp)
          · exact lone_quoteIdentifier htn.2
      createIndexes := by
        intro x hx
        rw [hch.createIndexes] at hx
        rcases List.mem_append.1 hx with hx | hx
        · exact he.indexes p.2 h6 x (List.mem_filter.1 (List.mem_filter.1 hx).1).1
        · exact hold.2.2 x ((hch.ri x).1 hx).1
      addConstraints := by
        intro x hx
        rw [hch.addConstraints] at hx
        rcases List.mem_append.1 hx with hx | hx
        · exact (htext.constraints x (List.mem_filter.1 hx).1).1
        · exact hold.2.1 x ((hch.rk x).1 hx).1 }
  addFastFkeys := by
    intro g hg c hcg
    exact fkey_text hs hd he (Or.inr (new_dest hd (h3.mem_iff.1 (List.mem_flatten.2 ⟨g, hg, hcg⟩))))
  addFkeys := by
    intro g hg c hcg
    rcases List.mem_append.1 (h4.mem_iff.1 (List.mem_flatten.2 ⟨g, hg, hcg⟩)) with h | h
    · exact fkey_text hs hd he (Or.inr (new_dest hd h))
    · exact fkey_text hs hd he (Or.inl (redone_old hcoll hs hd hc h))

/-! ## Names of files -/

/-- A step: a file of a migration that does not undo another one. -/
def StepShape (st : List File) : Prop :=
  ∃ n c, st = [(n, c)] ∧ Safe n ∧ n.head? = some '_' ∧ EndsWith n b!".sql" ∧ ¬ EndsWith n b!".undo.sql"

theorem tx_shape {a c n : Str} (h : Safe a) (hh : a.head? = some '_') (hn : n = a ++ b!".tx.sql") :
    StepShape [(n, c)] := by
  refine ⟨n, c, rfl, hn ▸ safe_append h (by decide), ?_, ?_⟩
  · rw [hn]
    cases a with
    | nil => cases hh
    | cons x a => exact hh
  · exact PgSpec.forward_ends ⟨a, h, hh, Or.inl hn⟩

theorem under_safe {a b : Str} (ha : Safe a) (hh : a.head? = some '_') (hb : Safe b) :
    Safe (a ++ b) ∧ (a ++ b).head? = some '_' := by
  refine ⟨safe_append ha hb, ?_⟩
  cases a with
  | nil => cases hh
  | cons x a => exact hh

theorem safe_fileTable {s n : Str} (h1 : Safe s) (h2 : Safe n) : Safe (fileTable e s n) := by
  unfold fileTable
  refine safe_append ?_ h2
  split
  · exact safe_append h1 (by decide)
  · decide

variable {pre : Str} (hn : Nameable pre src dest)

include hn in
theorem safe_tables {c : Constraint} (h : OldFkey src c ∨ OldFkey dest c) : Safe (tablesName e c) := by
  have key : ∀ t ∈ liveTables src ++ liveTables dest, t.tableSchema = c.tableSchema →
      t.tableName = c.tableName → c ∈ liveConstraints t → foreignKey c = true →
      Safe (tablesName e c) := by
    intro t h1 h2 h3 h4 h5
    obtain ⟨h6, h7⟩ := hn.tables t h1
    obtain ⟨h8, h9⟩ := hn.fkeys t h1 c h4 h5
    rw [h2] at h6
    rw [h3] at h7
    exact safe_append (safe_append (safe_fileTable h6 h7) (by decide)) (safe_fileTable h8 h9)
  rcases h with ⟨t, h1, h2, h3, h4, h5⟩ | ⟨t, h1, h2, h3, h4, h5⟩
  · exact key t (List.mem_append_left _ h1) h2 h3 h4 h5
  · exact key t (List.mem_append_right _ h1) h2 h3 h4 h5

include hn in
theorem safe_first {g : List Constraint} (h : ∀ c ∈ g, OldFkey src c ∨ OldFkey dest c) :
    Safe (tablesName e (firstFkey g)) := by
  cases g with
  | nil =>
    show Safe (tablesName e {})
    unfold tablesName
    exact safe_append (safe_append (safe_fileTable (by decide) (by decide)) (by decide))
      (safe_fileTable (by decide) (by decide))
  | cons c g => exact safe_tables hn (h c (by simp))

include hcoll hs hd hc hn in
theorem steps_shape {fk : MssqlFkeys}
    (h2 : fk.dropFkeys.groups.flatten.Perm ((if drop then (goneFkeys src dest).map (·.2) else []) ++
      (redone (diffEnv src dest drop) src dest).map (·.2)))
    (h3 : fk.addFastFkeys.groups.flatten.Perm ((newFkeys src dest false).map (·.2)))
    (h4 : fk.addFkeys.groups.flatten.Perm ((newFkeys src dest true).map (·.2) ++
      (redone (diffEnv src dest drop) src dest).map (·.2))) :
    ∀ st ∈ sqlSteps e (mssqlEvents src dest drop) fk, StepShape st := by
  have hadd : ∀ gs : List (List Constraint), (∀ g ∈ gs, ∀ c ∈ g, OldFkey src c ∨ OldFkey dest c) →
      ∀ st ∈ addFkeySteps e gs, StepShape st := by
    intro gs hgs st hst
    obtain ⟨g, hg, rfl⟩ := List.mem_map.1 hst
    have h5 := under_safe (a := b!"_add_") (by decide) rfl
      (safe_append (safe_first (e := e) hn (hgs g hg)) (b := b!"_fkeys") (by decide))
    exact tx_shape h5.1 h5.2 (by simp)
  intro st hst
  simp only [sqlSteps, List.mem_append] at hst
  rcases hst with (((((h | h) | h) | h) | h) | h) | h
  · obtain ⟨g, hg, rfl⟩ := List.mem_map.1 h
    have hold : ∀ c ∈ g, OldFkey src c ∨ OldFkey dest c := by
      intro c hcg
      rcases List.mem_append.1 (h2.mem_iff.1 (List.mem_flatten.2 ⟨g, hg, hcg⟩)) with h | h
      · cases drop with
        | false => cases h
        | true => exact Or.inl (gone_old hs h)
      · exact Or.inl (redone_old hcoll hs hd hc h)
    have h5 := under_safe (a := b!"_drop_") (by decide) rfl
      (safe_append (safe_first (e := e) hn hold) (b := b!"_fkeys") (by decide))
    exact tx_shape h5.1 h5.2 (by simp)
  · obtain ⟨s, hm, rfl⟩ := List.mem_map.1 h
    have h1 : (mssqlEvents src dest drop).filterMap Ev.dropSchema? = _ :=
      dropSchemas_exact ms_server hs.ok hd.ok drop
    rw [h1] at hm
    cases drop with
    | false => cases hm
    | true =>
      obtain ⟨h5, h6⟩ := List.mem_filter.1 hm
      rw [Bool.and_eq_true, Bool.not_eq_true'] at h6
      obtain ⟨h7, h8⟩ := hn.schemas s h5 h6.2
      refine ⟨_, _, rfl, safe_append (safe_append (by decide) h7) (by decide), rfl, ⟨_, rfl⟩, ?_⟩
      rintro ⟨a, ha⟩
      have ha' : b!"_drop_" ++ s.schemaName = a ++ b!".undo" := by
        have : (b!"_drop_" ++ s.schemaName) ++ b!".sql" = (a ++ b!".undo") ++ b!".sql" := by
          rw [ha]; simp
        exact List.append_cancel_right this
      rcases List.append_eq_append_iff.1 ha' with ⟨x, h9, h10⟩ | ⟨x, h9, h10⟩
      · exact h8 ⟨x, h10⟩
      · have hx := congrArg List.length h9
        have hy := congrArg List.length h10
        have hz : ∀ c, c ∈ x → c ∈ b!"_drop_" := fun c hc => h9 ▸ List.mem_append_right _ hc
        cases x with
        | nil => exact h8 ⟨[], by simpa using h10.symm⟩
        | cons c x =>
          have : c = '.' := by
            have := congrArg List.head? h10
            simp at this
            exact this.symm
          have := hz c (by simp)
          rw [‹c = '.'›] at this
          revert this
          decide
  · unfold createSchemaSteps at h
    dsimp only at h
    split at h
    · cases h
    · rw [List.mem_singleton] at h
      subst h
      refine ⟨_, _, rfl, by decide, rfl, ⟨b!"_create_schemas", by decide⟩, ?_⟩
      rintro ⟨a, ha⟩
      have := congrArg List.reverse ha
      simp at this
  · unfold tableSteps at h
    dsimp only at h
    split at h
    · cases h
    · rw [List.mem_singleton] at h
      subst h
      refine ⟨_, _, rfl, by decide, rfl, ⟨b!"_tables", by decide⟩, ?_⟩
      rintro ⟨a, ha⟩
      have := congrArg List.reverse ha
      simp at this
  · obtain ⟨a, ha, h⟩ := List.mem_flatMap.1 h
    obtain ⟨p, hp, rfl⟩ := mem_alters ms_server hs.ok hd.ok ha
    obtain ⟨h5, h6, -⟩ := mem_commonTables hp
    have hok := pairOk hs hd hc hp
    rw [hcoll] at hok
    have hch : Changes e.cur src.defaultCollation drop p.1 p.2
      (Sqddl.alterTableOf .sqlserver (diffEnv src dest drop) p.1 p.2) _ _ _ := changes hs.ok hd.ok hp hok
    have h7 := hn.tables p.2 (List.mem_append_right _ h6)
    unfold alterTableSteps at h
    simp only [List.mem_append] at h
    rcases h with (h | h) | h
    · rw [List.mem_singleton] at h
      subst h
      rw [hch.destTable]
      have h8 : Safe (fileTable e (alterSchema e p.2) p.2.tableName) := by
        refine safe_fileTable ?_ h7.2
        unfold alterSchema
        rw [if_pos hok.schema]
        exact h7.1
      have h9 := under_safe (a := b!"_alter_") (by decide) rfl h8
      exact tx_shape h9.1 h9.2 rfl
    · obtain ⟨x, hx, rfl⟩ := List.mem_map.1 h
      rw [hch.createIndexes] at hx
      have h8 : Safe x.indexName := by
        rcases List.mem_append.1 hx with hx | hx
        · exact hn.indexes p.2 (List.mem_append_right _ h6) x (List.mem_filter.1 hx).1
        · exact hn.indexes p.1 (List.mem_append_left _ h5) x ((hch.ri x).1 hx).1
      have h9 := under_safe (a := b!"_create_") (by decide) rfl h8
      exact tx_shape h9.1 h9.2 rfl
    · obtain ⟨x, hx, rfl⟩ := List.mem_map.1 h
      rw [hch.addConstraints] at hx
      have h8 : Safe x.constraintName := by
        rcases List.mem_append.1 hx with hx | hx
        · obtain ⟨h10, h11⟩ := List.mem_filter.1 hx
          rw [Bool.and_eq_true] at h11
          exact hn.keys p.2 (List.mem_append_right _ h6) x h10 h11.1
        · exact hn.keys p.1 (List.mem_append_left _ h5) x ((hch.rk x).1 hx).1 ((hch.rk x).1 hx).2.1
      have h9 := under_safe (a := b!"_add_") (by decide) rfl h8
      exact tx_shape h9.1 h9.2 rfl
  · exact hadd _ (fun g hg c hcg =>
      Or.inr (new_dest hd (h3.mem_iff.1 (List.mem_flatten.2 ⟨g, hg, hcg⟩)))) st h
  · refine hadd _ (fun g hg c hcg => ?_) st h
    rcases List.mem_append.1 (h4.mem_iff.1 (List.mem_flatten.2 ⟨g, hg, hcg⟩)) with h | h
    · exact Or.inr (new_dest hd h)
    · exact Or.inl (redone_old hcoll hs hd hc h)

theorem shape_ok {steps : List (List File)} (hp : Safe pre) (h : ∀ st ∈ steps, StepShape st) :
    StepsOk pre steps ∧ ∀ st ∈ steps, ∀ f ∈ st, Safe f.1 := by
  refine ⟨⟨hp.1, ?_, ?_, ?_⟩, ?_⟩
  · intro st hst f hf
    obtain ⟨n, c, rfl, h1, h2, -⟩ := h st hst
    rw [List.mem_singleton] at hf
    subst hf
    exact ⟨h1.1, h2⟩
  · intro st hst
    obtain ⟨n, c, rfl, h1, h2, h3, h4⟩ := h st hst
    exact ⟨_, [], rfl, h3, h4, fun g hg => by cases hg⟩
  · intro st hst
    obtain ⟨n, c, rfl, -⟩ := h st hst
    exact List.pairwise_singleton _ _
  · intro st hst f hf
    obtain ⟨n, c, rfl, h1, -⟩ := h st hst
    rw [List.mem_singleton] at hf
    subst hf
    exact h1

/-- The statements of files that are run one after the other. -/
def readFiles (cur : Str) (files : Str → Option Str) (fs : List Str) : Option (List MsText.Stmt) :=
  (fs.mapM fun f => (files f).bind (MsText.runScript (keywords .sqlserver) cur)).map List.flatten

end

section
variable {drop : Bool} {src dest : Catalog} {N : Numbers} {pre : Str}

/-- C66 and C67: the migration is written, its files are read back as statements that succeed one after
the other, and they turn the database into what the migration is meant to achieve.  Missing: differences
that `Comparable`, `Passable` and `Findable` exclude. -/
theorem ms_files_converge_partial
    (hs : Described src) (hd : Described dest)
    (hc : Comparable src.currentSchema src.defaultCollation drop src dest)
    (hS : Consistent (dbOf src.currentSchema src.defaultCollation src))
    (hG : Consistent (goalDb src.currentSchema src.defaultCollation drop src dest))
    (hp : Passable src.currentSchema src.defaultCollation drop src dest
      (dbOf src.currentSchema src.defaultCollation src)
      (goalDb src.currentSchema src.defaultCollation drop src dest))
    (hf : Findable N src dest (dbOf src.currentSchema src.defaultCollation src)
      (goalDb src.currentSchema src.defaultCollation drop src dest))
    (he : Expressible src.currentSchema src.defaultCollation src dest) (hn : Nameable pre src dest) :
    ∃ steps ws sts db, migration pre src dest drop = some (numbered pre steps, ws) ∧
      StepsOk pre steps ∧ (∀ st ∈ steps, ∀ f ∈ st, Safe f.1) ∧
      (steps.mapM (readStep src.currentSchema)).map List.flatten = some sts ∧
      Runs N (dbOf src.currentSchema src.defaultCollation src) sts db ∧
      Reached src.currentSchema src.defaultCollation drop src dest db := by
  let e : Env := ⟨src.currentSchema, src.defaultCollation⟩
  obtain ⟨fk, db, h1, h2, h3⟩ := ms_plan_converges_partial (e := e) rfl hs hd hc hS hG hp hf
  obtain ⟨fk', h4, h5, h6, h7⟩ := groups_ms hs.ok hd.ok drop hc.apart
  rw [h1] at h4
  obtain rfl := Option.some.inj h4
  have h8 := shape_ok (pre := pre) hn.pre (steps_shape (e := e) rfl hs hd hc hn h5 h6 h7)
  refine ⟨sqlSteps e (mssqlEvents src dest drop) fk, typeWarnings e (mssqlEvents src dest drop), _, db,
    ?_, h8.1, h8.2,
    sqlSteps_read_back e _ fk (ms_plan_text (e := e) rfl hs hd hc he h5 h6 h7), h2, h3⟩
  unfold migration
  dsimp only
  rw [h1]
  rfl

theorem files_plain {steps : List (List File)} (hp : Safe pre)
    (h : ∀ st ∈ steps, ∀ f ∈ st, Safe f.1) (f : Str) (hf : f ∈ (numbered pre steps).map (·.1)) :
    MigrateSpec.PlainName .sqlserver f := by
  obtain ⟨g, hg, rfl⟩ := List.mem_map.1 hf
  have : Safe g.1 := by
    obtain ⟨n, st, hst, x, hx, e⟩ := numbered_mem hg
    rw [e]
    refine safe_append (safe_append (safe_append hp (by decide)) ?_) (h st hst x hx)
    refine ⟨?_, ?_, ?_⟩ <;> intro h <;> have := pad2_isDigit _ _ h <;> revert this <;> decide
  refine ⟨?_, fun h => by cases h⟩
  rintro ⟨a, c, b, e⟩
  exact this.2.1 (e ▸ by simp)

theorem forward_reads {cur : Str} {steps : List (List File)} {sts : List MsText.Stmt}
    (hok : StepsOk pre steps) (h : (steps.mapM (readStep cur)).map List.flatten = some sts) :
    readFiles cur (fun f => (numbered pre steps).lookup f)
      (sortAndFilter ((numbered pre steps).map (·.1))) = some sts := by
  rw [numbered_forward hok]
  unfold readFiles
  rw [mapM_bind _ _ _ _ (lookup_forward hok), List.mapM_map]
  exact h

/-- C67, SQL Server, `generate` followed by `migrate`: the migration is written without a panic; fewer
than 100 generated files are picked up from a directory that contains nothing else, and a run of
`migrate` that succeeds without lock timeouts has executed statements that the database accepts and that
turn it into the described one.  Missing: differences that `Comparable`, `Passable` and `Findable`
exclude. -/
theorem ms_generate_migrate_converges_partial
    (hs : Described src) (hd : Described dest)
    (hc : Comparable src.currentSchema src.defaultCollation drop src dest)
    (hS : Consistent (dbOf src.currentSchema src.defaultCollation src))
    (hG : Consistent (goalDb src.currentSchema src.defaultCollation drop src dest))
    (hp : Passable src.currentSchema src.defaultCollation drop src dest
      (dbOf src.currentSchema src.defaultCollation src)
      (goalDb src.currentSchema src.defaultCollation drop src dest))
    (hf : Findable N src dest (dbOf src.currentSchema src.defaultCollation src)
      (goalDb src.currentSchema src.defaultCollation drop src dest))
    (he : Expressible src.currentSchema src.defaultCollation src dest) (hn : Nameable pre src dest) :
    ∃ fs ws, migration pre src dest drop = some (fs, ws) ∧
      ∀ {names : List Str}, Listing fs names → names.length < 100 →
        ∀ (cfg : Migrate.Cfg), cfg.dialect = .sqlserver → ∀ (env : Migrate.Env),
        (∀ f, env.files f = fs.lookup f) → ∀ (db : Migrate.DB), (∀ f ∈ names, db.hist f = none) →
        (∀ t, env.res t ≠ .lock) → (Migrate.migrate cfg env names (Migrate.start db)).1 = .ok →
        ∃ sts db', readFiles src.currentSchema env.files (MigrateSpec.execs
            (Migrate.migrate cfg env names (Migrate.start db)).2.log) = some sts ∧
          Runs N (dbOf src.currentSchema src.defaultCollation src) sts db' ∧
          Reached src.currentSchema src.defaultCollation drop src dest db' := by
  obtain ⟨steps, ws, sts, db', h1, h2, h3, h4, h5, h6⟩ :=
    ms_files_converge_partial hs hd hc hS hG hp hf he hn
  refine ⟨_, ws, h1, ?_⟩
  intro names hl hlen cfg hcfg env hfiles db hnew hlock hok
  refine ⟨sts, db', ?_, h5, h6⟩
  have hpl : ∀ f ∈ names, MigrateSpec.PlainName cfg.dialect f := by
    intro f hf
    rw [hcfg]
    exact files_plain hn.pre h3 f (hl.perm.mem_iff.1 hf)
  have hnd : names.Nodup := hl.perm.nodup_iff.2 h2.nodup
  have hlen' : steps.length < 100 := by
    refine Nat.lt_of_le_of_lt ?_ hlen
    rw [hl.perm.length_eq, List.length_map]
    exact numbered_length h2.ne_nil
  have hupd : ∀ f ∈ names, ¬ MigrateSpec.UpToDate env db.hist f := by
    rintro f hf ⟨r, hr, _⟩
    rw [hnew f hf] at hr
    cases hr
  rw [Migrate.migrate_ok_execs_eq cfg env names db hnd hpl hlock hok, Migrate.pending_all hupd,
    show names = (numbered pre steps).map (·.1) from (listed_in_order h2 hlen' hl).1, funext hfiles]
  exact forward_reads h2 h4

/-- C67, SQL Server, `automigrate`: however many files there are, a run that succeeds without lock
timeouts has executed statements that the database accepts and that turn it into the described one.
Missing: differences that `Comparable`, `Passable` and `Findable` exclude. -/
theorem ms_automigrate_converges_partial
    (hs : Described src) (hd : Described dest)
    (hc : Comparable src.currentSchema src.defaultCollation drop src dest)
    (hS : Consistent (dbOf src.currentSchema src.defaultCollation src))
    (hG : Consistent (goalDb src.currentSchema src.defaultCollation drop src dest))
    (hp : Passable src.currentSchema src.defaultCollation drop src dest
      (dbOf src.currentSchema src.defaultCollation src)
      (goalDb src.currentSchema src.defaultCollation drop src dest))
    (hf : Findable N src dest (dbOf src.currentSchema src.defaultCollation src)
      (goalDb src.currentSchema src.defaultCollation drop src dest))
    (he : Expressible src.currentSchema src.defaultCollation src dest) (hn : Nameable pre src dest) :
    ∃ fs ws, migration pre src dest drop = some (fs, ws) ∧
      ∀ (cfg : Migrate.Cfg), cfg.dialect = .sqlserver → cfg.skipHistory = true →
        ∀ (env : Migrate.Env), (∀ f, env.files f = fs.lookup f) → ∀ (db : Migrate.DB),
        (∀ t, env.res t ≠ .lock) →
        (Migrate.migrate cfg env (fs.map (·.1)) (Migrate.start db)).1 = .ok →
        ∃ sts db', readFiles src.currentSchema env.files (MigrateSpec.execs
            (Migrate.migrate cfg env (fs.map (·.1)) (Migrate.start db)).2.log) = some sts ∧
          Runs N (dbOf src.currentSchema src.defaultCollation src) sts db' ∧
          Reached src.currentSchema src.defaultCollation drop src dest db' := by
  obtain ⟨steps, ws, sts, db', h1, h2, h3, h4, h5, h6⟩ :=
    ms_files_converge_partial hs hd hc hS hG hp hf he hn
  refine ⟨_, ws, h1, ?_⟩
  intro cfg hcfg hskip env hfiles db hlock hok
  refine ⟨sts, db', ?_, h5, h6⟩
  rw [Migrate.migrate_ok_execs_eq cfg env _ db h2.nodup
    (by rw [hcfg]; exact files_plain hn.pre h3) hlock hok, Migrate.pending_skip hskip, funext hfiles]
  exact forward_reads h2 h4

end

end MsSpec
