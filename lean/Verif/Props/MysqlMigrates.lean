import Verif.Props.MysqlConverges
import Verif.Props.FileOrder
import Verif.Props.MigrateAgain

/-!
# Generating a MySQL migration and migrating (C67)
-/

namespace Sqddl.Migrate
open MigrateSpec FileSpec

/-- A successful run without lock timeouts executes the pending files, in order. -/
theorem migrate_ok_execs_eq (cfg : Cfg) (env : Env) (fs : List Str) (db : DB)
    (hn : fs.Nodup) (hp : ∀ f ∈ fs, PlainName cfg.dialect f) (hl : ∀ t, env.res t ≠ .lock)
    (hok : (migrate cfg env fs (start db)).1 = .ok) :
    execs (migrate cfg env fs (start db)).2.log = pending cfg env db.hist fs := by
  obtain ⟨segs, h1, h2, h3, h4, _⟩ := migrate_runs_pending cfg env fs db hn hp
  obtain ⟨k1, k2⟩ := h4 hok
  rw [h1, execs_flatMap, ← k1, ← List.flatMap_def]
  have : ∀ ss : List Seg, (∀ s ∈ ss, s ∈ segs) →
      (ss.flatMap fun s => execs s.events) = ss.flatMap fun s => s.files := by
    intro ss
    induction ss with
    | nil => intro _; rfl
    | cons s ss ih =>
      intro hs
      rw [List.flatMap_cons, List.flatMap_cons, ih fun x hx => hs x (by simp [hx])]
      obtain ⟨a, b, hg⟩ := Trace.good h2 s (hs s (by simp))
      rw [hg.once_ok hl (k2 s (hs s (by simp)))]
  exact this segs fun _ h => h

theorem pending_all {cfg : Cfg} {env : Env} {h : History} {fs : List Str}
    (hnew : ∀ f ∈ fs, ¬ UpToDate env h f) : pending cfg env h fs = sortAndFilter fs := by
  classical
  unfold pending
  rw [sortAndFilter_eq]
  congr 1
  · refine List.filter_congr fun f hf => ?_
    rw [decide_eq_true (hnew f hf), Bool.or_true, Bool.and_true]
    rw [← isMigrationFile_iff, ← isRepeatable_iff]
    cases isMigrationFile f <;> cases isRepeatable f <;> simp
  · refine List.filter_congr fun f hf => ?_
    rw [decide_eq_true (hnew f hf), Bool.or_true, Bool.and_true]
    rw [← isMigrationFile_iff, ← isRepeatable_iff]
    cases isMigrationFile f <;> cases isRepeatable f <;> simp

theorem pending_skip {cfg : Cfg} {env : Env} {h : History} {fs : List Str}
    (hk : cfg.skipHistory = true) : pending cfg env h fs = sortAndFilter fs := by
  classical
  unfold pending
  rw [sortAndFilter_eq]
  congr 1
  all_goals
    refine List.filter_congr fun f hf => ?_
    rw [hk, Bool.true_or, Bool.and_true]
    rw [← isMigrationFile_iff, ← isRepeatable_iff]
    cases isMigrationFile f <;> cases isRepeatable f <;> simp

end Sqddl.Migrate


namespace EngineSpec
open SqlSpec Sqddl DdlText CatalogSpec FileSpec Sqddl.Files Sqddl.Mysql

theorem noSpaces_safe {n : Str} (h : Safe n) : Safe (noSpaces n) := by
  have key : ∀ c, c ≠ '_' → c ∉ n → c ∉ noSpaces n := by
    intro c hc hn hm
    obtain ⟨x, hx, e⟩ := List.mem_map.1 hm
    split at e
    · exact hc e.symm
    · exact hn (e ▸ hx)
  exact ⟨key _ (by decide) h.1, key _ (by decide) h.2.1, key _ (by decide) h.2.2⟩

theorem safe_append {a b : Str} (h1 : Safe a) (h2 : Safe b) : Safe (a ++ b) := by
  simp only [Safe, List.mem_append, not_or]
  exact ⟨⟨h1.1, h2.1⟩, ⟨h1.2.1, h2.2.1⟩, h1.2.2, h2.2.2⟩

theorem noSpaces_undo {n : Str} (h : EndsWith (noSpaces n) b!".undo") : EndsWith n b!".undo" := by
  obtain ⟨a, h⟩ := h
  obtain ⟨l, r, e, h1, h2⟩ := List.map_eq_append_iff.1 h
  refine ⟨l, ?_⟩
  rw [e]
  congr 1
  have key : ∀ (r s : Str), ' ' ∉ s → '_' ∉ s →
      r.map (fun c => if c = ' ' then '_' else c) = s → r = s := by
    intro r
    induction r with
    | nil => intro s _ _ e; exact e
    | cons c r ih =>
      intro s h1 h2 e
      cases s with
      | nil => cases e
      | cons d s =>
        injection e with e1 e2
        dsimp only at e1
        simp only [List.mem_cons, not_or] at h1 h2
        rw [ih s h1.2 h2.2 e2]
        split at e1
        · exact absurd e1 h2.1
        · rw [e1]
  exact key r _ (by decide) (by decide) h2

theorem endsWith_sql {a : Str} (h : EndsWith (a ++ b!".sql") b!".undo.sql") : EndsWith a b!".undo" := by
  obtain ⟨c, h⟩ := h
  refine ⟨c, ?_⟩
  rw [show c ++ b!".undo.sql" = (c ++ b!".undo") ++ b!".sql" from by simp] at h
  exact List.append_cancel_right h

theorem suffix_ok {a n : Str} (hn : FileWord n) :
    ¬ EndsWith (a ++ b!"_" ++ noSpaces n ++ b!".sql") b!".undo.sql" := by
  intro h
  have h := endsWith_sql h
  rw [List.append_assoc] at h
  exact hn.2 (noSpaces_undo (endsWith_of_append (by decide) h))

section
variable {pre : Str} {drop : Bool} {src dest : Catalog}
variable (hs : Described src) (hd : Described dest) (hn : Nameable pre src dest)

/-- A step that consists of a file for an object. -/
def Single (st : List File) : Prop :=
  ∃ a n c, st = [(a ++ b!"_" ++ noSpaces n ++ b!".sql", c)] ∧ Safe a ∧ FileWord n ∧
    a.head? = some '_'

include hs hd hn in
theorem steps_shape (cur coll : Str) : ∀ st ∈ sqlSteps cur coll (diffEvents .mysql src dest drop),
    Single st ∨ ∃ x c r, (x = b!"_schemas" ∨ x = b!"_tables") ∧ st = (x ++ b!".sql", c) :: r ∧
      (r = [] ∨ ∃ d, r = [(x ++ b!".undo.sql", d)]) := by
  intro st hst
  simp only [sqlSteps, List.mem_append] at hst
  rcases hst with (((h | h) | h) | h) | h
  · obtain ⟨c, hc, rfl⟩ := List.mem_map.1 h
    have hc := (dropFkeys_exact server hs.ok hd.ok drop).mem_iff.1 hc
    cases drop with
    | false => cases hc
    | true =>
      obtain ⟨t, h1, h2, h3⟩ := mem_constraintsOf hs hc
      rw [Bool.and_eq_true] at h3
      exact Or.inl ⟨b!"_drop", c.constraintName, _, rfl, by decide,
        hn.fkeys t (List.mem_append_left _ (tab_some h1).1) c (find_some h2).1 h3.1, rfl⟩
  · right
    unfold schemaSteps at h
    dsimp only at h
    split at h
    · cases h
    · rw [List.mem_singleton] at h
      subst h
      refine ⟨b!"_schemas", _, _, Or.inl rfl, rfl, ?_⟩
      split
      · exact Or.inl rfl
      · exact Or.inr ⟨_, rfl⟩
  · right
    unfold tableSteps at h
    dsimp only at h
    split at h
    · cases h
    · rw [List.mem_singleton] at h
      subst h
      refine ⟨b!"_tables", _, _, Or.inr rfl, rfl, ?_⟩
      split
      · exact Or.inl rfl
      · exact Or.inr ⟨_, rfl⟩
  · left
    obtain ⟨a, ha, rfl⟩ := List.mem_map.1 h
    obtain ⟨p, hp, rfl⟩ := mem_alters server hs.ok hd.ok ha
    have h1 := (mem_commonTables hp).2.1
    show Single [(alterName cur p.2, _)]
    unfold alterName
    split
    · refine ⟨b!"_alter_" ++ noSpaces p.2.tableSchema, p.2.tableName,
        alterTable cur coll (Sqddl.alterTableOf .mysql (diffEnv src dest drop) p.1 p.2), ?_, ?_,
        hn.tables _ h1, rfl⟩
      · simp
      · refine safe_append (by decide) (noSpaces_safe ?_)
        obtain ⟨s, h2, h3⟩ := List.mem_map.1 (hasSchema_iff.1 (schema_of_table hd.ok h1))
        rw [← h3]
        exact hn.schemas s h2
    · exact ⟨b!"_alter", p.2.tableName, _, rfl, by decide, hn.tables _ h1, rfl⟩
  · left
    obtain ⟨c, hc, rfl⟩ := List.mem_map.1 h
    rw [addFkeys_exact server hs.ok hd.ok drop] at hc
    obtain ⟨t, h1, h2, h3⟩ := mem_constraintsOf hd hc
    rw [Bool.and_eq_true] at h3
    exact ⟨b!"_add", c.constraintName, _, rfl, by decide,
      hn.fkeys t (List.mem_append_right _ (tab_some h1).1) c (find_some h2).1 h3.1, rfl⟩

include hs hd hn in
theorem steps_ok (cur coll : Str) :
    StepsOk pre (sqlSteps cur coll (diffEvents .mysql src dest drop)) ∧
    ∀ st ∈ sqlSteps cur coll (diffEvents .mysql src dest drop), ∀ f ∈ st, Safe f.1 := by
  have hshape := steps_shape (drop := drop) hs hd hn cur coll
  have hsafe : ∀ st ∈ sqlSteps cur coll (diffEvents .mysql src dest drop), ∀ f ∈ st,
      Safe f.1 ∧ f.1.head? = some '_' := by
    intro st hst f hf
    rcases hshape st hst with ⟨a, n, c, rfl, h1, h2, h3⟩ | ⟨x, c, r, h1, rfl, h2⟩
    · rw [List.mem_singleton] at hf
      subst hf
      refine ⟨safe_append (safe_append (safe_append h1 (by decide)) (noSpaces_safe h2.1)) (by decide), ?_⟩
      cases a with
      | nil => cases h3
      | cons x a => exact h3
    · rcases List.mem_cons.1 hf with rfl | hf
      · rcases h1 with rfl | rfl <;> exact ⟨by dsimp only; decide, rfl⟩
      · rcases h2 with rfl | ⟨d, rfl⟩
        · cases hf
        · rw [List.mem_singleton] at hf
          subst hf
          rcases h1 with rfl | rfl <;> exact ⟨by dsimp only; decide, rfl⟩
  refine ⟨⟨hn.pre.1, fun st hst f hf => ⟨(hsafe st hst f hf).1.1, (hsafe st hst f hf).2⟩, ?_, ?_⟩,
    fun st hst f hf => (hsafe st hst f hf).1⟩
  · intro st hst
    rcases hshape st hst with ⟨a, n, c, rfl, h1, h2, h3⟩ | ⟨x, c, r, h1, rfl, h2⟩
    · exact ⟨_, [], rfl, ⟨_, rfl⟩, suffix_ok h2, by simp⟩
    · refine ⟨_, r, rfl, ⟨_, rfl⟩, ?_, ?_⟩
      · rw [← hasSuffix_iff]
        rcases h1 with rfl | rfl <;> (dsimp only; decide)
      · intro g hg
        rcases h2 with rfl | ⟨d, rfl⟩
        · cases hg
        · rw [List.mem_singleton] at hg
          subst hg
          exact ⟨x, rfl⟩
  · intro st hst
    rcases hshape st hst with ⟨a, n, c, rfl, h1, h2, h3⟩ | ⟨x, c, r, h1, rfl, h2⟩
    · exact List.pairwise_singleton _ _
    · rcases h2 with rfl | ⟨d, rfl⟩
      · exact List.pairwise_singleton _ _
      · rw [List.pairwise_cons]
        refine ⟨?_, List.pairwise_singleton _ _⟩
        intro g hg
        rw [List.mem_singleton] at hg
        subst hg
        rcases h1 with rfl | rfl <;> (dsimp only; decide)

/-- The statements of files that are run one after the other. -/
def readFiles (cur : Str) (files : Str → Option Str) (fs : List Str) : Option (List Stmt) :=
  (fs.mapM fun f => (files f).bind (runScript .mysql (keywords .mysql) cur)).map List.flatten

theorem mapM_bind {α β γ : Type} (xs : List α) (f : α → Option β) (g : β → Option γ) (ys : List β)
    (h : xs.mapM f = some ys) : (xs.mapM fun x => (f x).bind g) = ys.mapM g := by
  induction xs generalizing ys with
  | nil => cases h; rfl
  | cons x xs ih =>
    rw [List.mapM_cons] at h
    cases e1 : f x with
    | none => rw [e1] at h; cases h
    | some y =>
      rw [e1] at h
      cases e2 : xs.mapM f with
      | none => rw [e2] at h; cases h
      | some zs =>
        rw [e2] at h
        cases h
        rw [List.mapM_cons, List.mapM_cons, e1, ih zs e2]
        rfl

include hs hd hn in
/-- The files that `migrate` picks up contain the statements of the migration. -/
theorem forward_reads_back (he : Expressible src.currentSchema src.defaultCollation src dest) :
    readFiles src.currentSchema (fun f => (migration pre src dest drop).1.lookup f)
      (sortAndFilter ((migration pre src dest drop).1.map (·.1))) =
    some (plan src.currentSchema src.defaultCollation (diffEvents .mysql src dest drop)) := by
  have hok := (steps_ok (drop := drop) hs hd hn src.currentSchema src.defaultCollation).1
  have e : (migration pre src dest drop).1 = numbered pre (sqlSteps src.currentSchema
    src.defaultCollation (diffEvents .mysql src dest drop)) := rfl
  rw [e, numbered_forward hok]
  unfold readFiles
  rw [mapM_bind _ _ _ _ (lookup_forward hok)]
  have h := steps_read_back src.currentSchema src.defaultCollation (diffEvents .mysql src dest drop)
    (plan_text hs hd he)
  rw [List.mapM_map]
  exact h

include hs hd hn in
theorem files_plain (f : Str) (hf : f ∈ (migration pre src dest drop).1.map (·.1)) :
    MigrateSpec.PlainName .mysql f := by
  obtain ⟨g, hg, rfl⟩ := List.mem_map.1 hf
  have hok := steps_ok (drop := drop) hs hd hn src.currentSchema src.defaultCollation
  have : Safe g.1 := by
    obtain ⟨n, st, hst, x, hx, e⟩ := numbered_mem hg
    rw [e]
    refine safe_append (safe_append (safe_append hn.pre (by decide)) ?_) (hok.2 st hst x hx)
    refine ⟨?_, ?_, ?_⟩ <;> intro h <;> have := pad2_isDigit _ _ h <;> revert this <;> decide
  refine ⟨?_, fun _ => this.2.2⟩
  rintro ⟨a, c, b, e⟩
  exact this.2.1 (e ▸ by simp)

/-- C67, `generate` followed by `migrate`: fewer than 100 generated files are picked up from a
directory that contains nothing else, and a run of `migrate` that succeeds without lock timeouts
has executed statements that the database accepts and that turn it into the described one. -/
theorem generate_migrate_converges_partial
    (hc : Comparable src.currentSchema drop src dest)
    (hS : (dbOf src.currentSchema src.defaultCollation src).Consistent)
    (hT : (Db.goal drop (dbOf src.currentSchema src.defaultCollation src)
      (dbOf src.currentSchema src.defaultCollation dest)).Consistent)
    (hs : Described src) (hd : Described dest)
    (he : Expressible src.currentSchema src.defaultCollation src dest)
    (hn : Nameable pre src dest) {names : List Str}
    (hl : Listing (migration pre src dest drop).1 names) (hlen : names.length < 100)
    (cfg : Migrate.Cfg) (hcfg : cfg.dialect = .mysql) (env : Migrate.Env)
    (hfiles : ∀ f, env.files f = (migration pre src dest drop).1.lookup f) (db : Migrate.DB)
    (hnew : ∀ f ∈ names, db.hist f = none) (hlock : ∀ t, env.res t ≠ .lock)
    (hok : (Migrate.migrate cfg env names (Migrate.start db)).1 = .ok) :
    ∃ sts db', readFiles src.currentSchema env.files (MigrateSpec.execs
        (Migrate.migrate cfg env names (Migrate.start db)).2.log) = some sts ∧
      Runs (dbOf src.currentSchema src.defaultCollation src) sts db' ∧
      Db.Reached src.currentSchema src.defaultCollation drop src dest db' := by
  obtain ⟨db', h1, h2⟩ := plan_converges hs hd hc hS hT
  refine ⟨_, db', ?_, h1, h2⟩
  have hp : ∀ f ∈ names, MigrateSpec.PlainName cfg.dialect f := by
    intro f hf
    rw [hcfg]
    exact files_plain hs hd hn f (hl.perm.mem_iff.1 hf)
  have hst := (steps_ok (drop := drop) hs hd hn src.currentSchema src.defaultCollation).1
  have e : (migration pre src dest drop).1 = numbered pre (sqlSteps src.currentSchema
    src.defaultCollation (diffEvents .mysql src dest drop)) := rfl
  have hnd : names.Nodup := hl.perm.nodup_iff.2 (by rw [e]; exact hst.nodup)
  have hlen' : (sqlSteps src.currentSchema src.defaultCollation
      (diffEvents .mysql src dest drop)).length < 100 := by
    refine Nat.lt_of_le_of_lt ?_ hlen
    rw [hl.perm.length_eq, List.length_map, e]
    exact numbered_length hst.ne_nil
  have hupd : ∀ f ∈ names, ¬ MigrateSpec.UpToDate env db.hist f := by
    rintro f hf ⟨r, hr, _⟩
    rw [hnew f hf] at hr
    cases hr
  rw [Migrate.migrate_ok_execs_eq cfg env names db hnd hp hlock hok, Migrate.pending_all hupd,
    show names = (migration pre src dest drop).1.map (·.1) from (listed_in_order hst hlen' hl).1]
  have := forward_reads_back (drop := drop) hs hd hn he
  rw [funext hfiles]
  exact this

theorem skip_reads {files : List File} {cur : Str} {sts : List Stmt}
    (hr : readFiles cur (fun f => files.lookup f) (sortAndFilter (files.map (·.1))) = some sts)
    (hn : (files.map (·.1)).Nodup)
    (hp : ∀ f ∈ files.map (·.1), MigrateSpec.PlainName .mysql f)
    (cfg : Migrate.Cfg) (hcfg : cfg.dialect = .mysql) (hskip : cfg.skipHistory = true)
    (env : Migrate.Env) (hfiles : ∀ f, env.files f = files.lookup f) (db : Migrate.DB)
    (hlock : ∀ t, env.res t ≠ .lock)
    (hok : (Migrate.migrate cfg env (files.map (·.1)) (Migrate.start db)).1 = .ok) :
    readFiles cur env.files (MigrateSpec.execs
      (Migrate.migrate cfg env (files.map (·.1)) (Migrate.start db)).2.log) = some sts := by
  rw [Migrate.migrate_ok_execs_eq cfg env (files.map (·.1)) db hn (by rw [hcfg]; exact hp) hlock hok,
    Migrate.pending_skip hskip, funext hfiles]
  exact hr

/-- C67, `automigrate`: however many files there are, a run that succeeds without lock timeouts
has executed statements that the database accepts and that turn it into the described one. -/
theorem automigrate_converges_partial
    (hc : Comparable src.currentSchema drop src dest)
    (hS : (dbOf src.currentSchema src.defaultCollation src).Consistent)
    (hT : (Db.goal drop (dbOf src.currentSchema src.defaultCollation src)
      (dbOf src.currentSchema src.defaultCollation dest)).Consistent)
    (hs : Described src) (hd : Described dest)
    (he : Expressible src.currentSchema src.defaultCollation src dest)
    (hn : Nameable pre src dest)
    (cfg : Migrate.Cfg) (hcfg : cfg.dialect = .mysql) (hskip : cfg.skipHistory = true)
    (env : Migrate.Env)
    (hfiles : ∀ f, env.files f = (migration pre src dest drop).1.lookup f) (db : Migrate.DB)
    (hlock : ∀ t, env.res t ≠ .lock)
    (hok : (Migrate.migrate cfg env ((migration pre src dest drop).1.map (·.1))
      (Migrate.start db)).1 = .ok) :
    ∃ sts db', readFiles src.currentSchema env.files (MigrateSpec.execs
        (Migrate.migrate cfg env ((migration pre src dest drop).1.map (·.1))
          (Migrate.start db)).2.log) = some sts ∧
      Runs (dbOf src.currentSchema src.defaultCollation src) sts db' ∧
      Db.Reached src.currentSchema src.defaultCollation drop src dest db' := by
  obtain ⟨db', h1, h2⟩ := plan_converges hs hd hc hS hT
  have hst := (steps_ok (drop := drop) hs hd hn src.currentSchema src.defaultCollation).1
  exact ⟨_, db', skip_reads (forward_reads_back (drop := drop) hs hd hn he) hst.nodup
    (files_plain hs hd hn) cfg hcfg hskip env hfiles db hlock hok, h1, h2⟩

end

end EngineSpec
