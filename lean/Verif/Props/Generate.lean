import Verif.Spec.Generate
import Verif.Props.Files

/-!
# C43: warnings and dry runs block changes
-/

namespace Sqddl.Generate
open Go GenerateSpec

theorem acts_prefix (fails : Fails) (todo done : List Act) :
    ∃ k, (acts fails done todo).1 = done ++ todo.take k := by
  induction todo generalizing done with
  | nil => exact ⟨0, by simp [acts]⟩
  | cons a r ih =>
    simp only [acts, act]
    cases h : fails (done ++ [a]) with
    | some e => exact ⟨1, by simp⟩
    | none =>
      obtain ⟨k, hk⟩ := ih (done ++ [a])
      exact ⟨k + 1, by simp [hk]⟩

theorem acts_mem (fails : Fails) (todo : List Act) {a : Act}
    (h : a ∈ (acts fails [] todo).1) : a ∈ todo := by
  obtain ⟨k, hk⟩ := acts_prefix fails todo []
  rw [hk] at h
  exact List.mem_of_mem_take (by simpa using h)

theorem acts_ok (fails : Fails) (todo done : List Act) (h : (acts fails done todo).2 = none) :
    (acts fails done todo).1 = done ++ todo := by
  induction todo generalizing done with
  | nil => simp [acts]
  | cons a r ih =>
    simp only [acts, act] at h ⊢
    cases hf : fails (done ++ [a]) with
    | some e => simp [hf] at h
    | none =>
      simp only [hf] at h ⊢
      rw [ih _ h]; simp

theorem diskAfter_id (k : Disk) (as : List Act) (h : ∀ a ∈ as, onDisk k a = k) :
    diskAfter k as = k := by
  induction as with
  | nil => rfl
  | cons a r ih =>
    simp only [diskAfter, List.foldl_cons]
    rw [h a (by simp)]
    exact ih fun a ha => h a (by simp [ha])

theorem diskAfter_append (k : Disk) (as bs : List Act) :
    diskAfter k (as ++ bs) = diskAfter (diskAfter k as) bs := by
  simp [diskAfter]

theorem errorf_plain (s : Str) (h : '%' ∉ s) : errorf s = s := by
  induction s with
  | nil => rfl
  | cons c r ih =>
    simp only [List.mem_cons, not_or] at h
    rw [errorf, ih h.2]
    · rintro rfl; exact absurd rfl h.1
    · rintro _ rfl; exact absurd rfl h.1
    · rintro _ _ rfl; exact absurd rfl h.1

theorem join_infix (w : Str) : ∀ (ws : List Str), w ∈ ws → w <:+: join b!"\n" ws := by
  intro ws
  induction ws with
  | nil => simp
  | cons x r ih =>
    intro hx
    cases r with
    | nil => simp at hx; subst hx; simp [join]
    | cons y r =>
      rw [join]
      rcases List.mem_cons.1 hx with rfl | hx
      · exact ⟨[], _, by simp only [List.nil_append, List.append_assoc]; rfl⟩
      · exact List.IsInfix.trans (ih hx) (List.suffix_append _ _).isInfix

theorem join_plain : ∀ (ws : List Str), (∀ w ∈ ws, '%' ∉ w) → '%' ∉ join b!"\n" ws := by
  intro ws
  induction ws with
  | nil => simp [join]
  | cons x r ih =>
    intro h
    cases r with
    | nil => simpa [join] using h
    | cons y r =>
      rw [join]
      simp only [List.mem_append, not_or]
      exact ⟨⟨h x (by simp), by decide⟩, ih fun w hw => h w (by simp [hw])⟩

theorem warningsError_lists (ws : List Str) (hp : ∀ w ∈ ws, '%' ∉ w) (w : Str) (hw : w ∈ ws) :
    w <:+: warningsError ws := by
  unfold warningsError
  rw [errorf_plain _ (by
    simp only [List.mem_append, not_or]
    exact ⟨by decide, join_plain ws hp⟩)]
  exact List.IsInfix.trans (join_infix w _ hw) (List.suffix_append _ _).isInfix

/-- **C43** (`generate`).  If the migration has warnings that were not accepted, then without
`-dry-run` the command fails, and it has done nothing: no file, no output.  The error shows every
warning, if there is no percent sign in them. -/
theorem generate_warnings (fl : Flags) (dir : Str) (named : Bool) (fails : Fails) (m : Migration)
    (hw : m.warnings ≠ []) (ha : fl.acceptWarnings = false) (hd : fl.dryRun = false) :
    (generate fl dir named fails (.ok m)).1 = [] ∧
    ∃ e, (generate fl dir named fails (.ok m)).2 = some e ∧
      ((∀ w ∈ m.warnings, '%' ∉ w) → ∀ w ∈ m.warnings, w <:+: e) :=
  ⟨by simp [generate, hw, ha, hd], warningsError m.warnings, by simp [generate, hw, ha, hd],
    warningsError_lists _⟩

/-- The same for `automigrate`, if there is anything to execute. -/
theorem automigrate_warnings (fl : Flags) (fails : Fails) (m : Migration) (hf : m.files ≠ [])
    (hw : m.warnings ≠ []) (ha : fl.acceptWarnings = false) (hd : fl.dryRun = false) :
    (automigrate fl fails (.ok m)).1 = [] ∧
    ∃ e, (automigrate fl fails (.ok m)).2 = some e ∧
      ((∀ w ∈ m.warnings, '%' ∉ w) → ∀ w ∈ m.warnings, w <:+: e) :=
  ⟨by simp [automigrate, hf, hw, ha, hd], warningsError m.warnings,
    by simp [automigrate, hf, hw, ha, hd], warningsError_lists _⟩

/-- A warning with a percent sign (the name of a table is enough) is not shown as it is, because the
warnings are used as a format string. -/
theorem warning_percent_refuted :
    ¬ ∀ (ws : List Str), ∀ w ∈ ws, w <:+: warningsError ws := by
  intro h
  have := h [b!"table 50%x: unsafe"] _ (List.mem_singleton.2 rfl)
  revert this
  decide +kernel

/-- **C43** (`generate -dry-run`).  In a dry run the disk stays as it is, whatever happens. -/
theorem generate_dryRun (fl : Flags) (dir : Str) (named : Bool) (fails : Fails)
    (res : Except Str Migration) (k : Disk) (hd : fl.dryRun = true) :
    diskAfter k (generate fl dir named fails res).1 = k ∧
    ∀ a ∈ (generate fl dir named fails res).1, executes a = false := by
  cases res with
  | error e => simp [generate, diskAfter]
  | ok m =>
    have key : ∀ a ∈ (generate fl dir named fails (.ok m)).1,
        (∃ s, a = .stderr s) ∨ ∃ s, a = .stdout s := by
      intro a ha
      simp only [generate, hd] at ha
      split at ha
      · simp at ha
      · have := acts_mem _ _ ha
        simp only [List.mem_append, List.mem_map, List.mem_flatMap, generateFile, hd] at this
        rcases this with ⟨w, _, rfl⟩ | ⟨p, _, h⟩
        · exact .inl ⟨_, rfl⟩
        · right
          simp only [if_true] at h
          split at h
          · simp at h
          · simp only [List.mem_append] at h
            rcases h with (h | h) | h
            · split at h <;> simp at h; exact ⟨_, h⟩
            · split at h <;> simp at h; exact ⟨_, h⟩
            · simp at h; exact ⟨_, h⟩
    refine ⟨diskAfter_id k _ fun a ha => ?_, fun a ha => ?_⟩
    · rcases key a ha with ⟨s, rfl⟩ | ⟨s, rfl⟩ <;> rfl
    · rcases key a ha with ⟨s, rfl⟩ | ⟨s, rfl⟩ <;> rfl

/-- A dry run without errors prints the contents of the scripts other than the undo scripts, in
order, each with at most a line break and a comment line with its name in front. -/
theorem generate_prints (fl : Flags) (dir : Str) (named : Bool) (fails : Fails) (m : Migration)
    (hd : fl.dryRun = true) (hok : (generate fl dir named fails (.ok m)).2 = none) :
    ∃ lead : Nat → Str → Str,
      printed (generate fl dir named fails (.ok m)).1 =
        (m.files.zipIdx.filter fun p => ! hasSuffix (outputName dir p.1.1) b!".undo.sql").flatMap
          (fun p => lead p.2 p.1.1 ++ p.1.2) ∧
      ∀ i n, lead i n = (if i > 0 then b!"\n" else []) ++
        (if named then b!"-- " ++ outputName dir n ++ b!"\n" else []) := by
  refine ⟨fun i n => (if i > 0 then b!"\n" else []) ++
        (if named then b!"-- " ++ outputName dir n ++ b!"\n" else []), ?_, fun _ _ => rfl⟩
  have hgen : (generate fl dir named fails (.ok m)).1 =
      (m.warnings.map fun w => Act.stderr (w ++ b!"\n")) ++
        m.files.zipIdx.flatMap fun p => generateFile fl dir named p.2 p.1 := by
    simp only [generate, hd] at hok ⊢
    split
    · rename_i h; simp at h
    · rename_i h
      rw [if_neg h] at hok
      simpa using acts_ok _ _ [] hok
  rw [hgen]
  simp only [printed, List.flatMap_append]
  rw [show List.flatMap _ (m.warnings.map fun w => Act.stderr (w ++ b!"\n")) = [] by
    induction m.warnings with
    | nil => rfl
    | cons x r ih => simp [ih]]
  simp only [List.nil_append]
  generalize m.files.zipIdx = fs
  induction fs with
  | nil => rfl
  | cons p r ih =>
    simp only [List.flatMap_cons, List.flatMap_append, ih, List.filter_cons]
    cases h : hasSuffix (outputName dir p.1.1) b!".undo.sql" with
    | true => simp [generateFile, hd, h]
    | false =>
      by_cases hi : p.2 > 0 <;> cases named <;> simp [generateFile, hd, h, hi]

theorem outputName_inj (dir a b : Str) (h : outputName dir a = outputName dir b) : a = b := by
  unfold outputName at h
  split at h
  · exact h
  · exact List.append_cancel_left h

theorem diskAfter_files (fl : Flags) (dir : Str) (named : Bool) (hd : fl.dryRun = false)
    (fs : List ((Str × Str) × Nat)) (k : Disk) :
    (∀ x, (∀ p ∈ fs, x ≠ outputName dir p.1.1) →
      diskAfter k (fs.flatMap fun p => generateFile fl dir named p.2 p.1) x = k x) ∧
    ((fs.map fun p => p.1.1).Nodup → ∀ p ∈ fs,
      diskAfter k (fs.flatMap fun p => generateFile fl dir named p.2 p.1) (outputName dir p.1.1)
        = some p.1.2) := by
  induction fs generalizing k with
  | nil => simp [diskAfter]
  | cons q r ih =>
    simp only [List.flatMap_cons, diskAfter_append]
    have hq : diskAfter k (generateFile fl dir named q.2 q.1) = fun x =>
        if x = outputName dir q.1.1 then some q.1.2 else k x := by
      funext x
      simp only [generateFile, hd, diskAfter]
      simp only [Bool.false_eq_true, if_false, List.foldl_cons, List.foldl_nil, onDisk]
      split <;> rfl
    rw [hq]
    refine ⟨fun x hx => ?_, fun hn p hp => ?_⟩
    · rw [(ih _).1 x fun p hp => hx p (by simp [hp])]
      simp [hx q (by simp)]
    · simp only [List.map_cons, List.nodup_cons, List.mem_map, not_exists, not_and] at hn
      rcases List.mem_cons.1 hp with rfl | hp
      · rw [(ih _).1 _ fun p' hp' h => hn.1 p' hp' (outputName_inj _ _ _ h).symm]
        simp
      · exact (ih _).2 hn.2 p hp

/-- **C43**, the other side: without `-dry-run`, if `generate` reports no error then every file of
the migration is on the disk under its name with its contents, and nothing else has changed. -/
theorem generate_writes (fl : Flags) (dir : Str) (named : Bool) (fails : Fails) (m : Migration)
    (k : Disk) (hd : fl.dryRun = false) (hn : (m.files.map Prod.fst).Nodup)
    (hok : (generate fl dir named fails (.ok m)).2 = none) :
    (∀ f ∈ m.files,
      diskAfter k (generate fl dir named fails (.ok m)).1 (outputName dir f.1) = some f.2) ∧
    ∀ x, (∀ f ∈ m.files, x ≠ outputName dir f.1) →
      diskAfter k (generate fl dir named fails (.ok m)).1 x = k x := by
  have hgen : (generate fl dir named fails (.ok m)).1 =
      (m.warnings.map fun w => Act.stderr (w ++ b!"\n")) ++
        m.files.zipIdx.flatMap fun p => generateFile fl dir named p.2 p.1 := by
    simp only [generate, hd] at hok ⊢
    split
    · rename_i h; simp [h] at hok
    · rename_i h
      rw [if_neg h] at hok
      simpa using acts_ok _ _ [] hok
  rw [hgen, diskAfter_append, diskAfter_id k]
  · have hmap : (m.files.zipIdx.map fun p => p.1.1) = m.files.map Prod.fst := by
      have : ∀ (fs : List (Str × Str)) (n : Nat),
          ((fs.zipIdx n).map fun p => p.1.1) = fs.map Prod.fst := by
        intro fs
        induction fs with
        | nil => intro n; rfl
        | cons x r ih => intro n; simp [ih]
      exact this m.files 0
    have := diskAfter_files fl dir named hd m.files.zipIdx k
    refine ⟨fun f hf => ?_, fun x hx => ?_⟩
    · obtain ⟨i, hi, rfl⟩ := List.mem_iff_getElem.1 hf
      have hm : (m.files[i], i) ∈ m.files.zipIdx := by
        rw [List.mem_zipIdx_iff_getElem?]; simp [hi]
      exact this.2 (hmap ▸ hn) _ hm
    · refine this.1 x fun p hp => hx p.1 ?_
      exact List.fst_mem_of_mem_zipIdx hp
  · intro a ha
    simp only [List.mem_map] at ha
    obtain ⟨w, _, rfl⟩ := ha
    rfl

/-- Whatever fails: `generate` changes no file but those of the migration, and never the
database. -/
theorem generate_only (fl : Flags) (dir : Str) (named : Bool) (fails : Fails)
    (res : Except Str Migration) (k : Disk) (x : Str)
    (hx : ∀ m, res = .ok m → ∀ f ∈ m.files, x ≠ outputName dir f.1) :
    diskAfter k (generate fl dir named fails res).1 x = k x ∧
    ∀ a ∈ (generate fl dir named fails res).1, executes a = false := by
  have key : ∀ a ∈ (generate fl dir named fails res).1,
      (∀ k : Disk, onDisk k a x = k x) ∧ executes a = false := by
    intro a ha
    cases res with
    | error e => simp [generate] at ha
    | ok m =>
      simp only [generate] at ha
      split at ha
      · simp at ha
      · have := acts_mem _ _ ha
        simp only [List.mem_append, List.mem_map, List.mem_flatMap, generateFile] at this
        rcases this with ⟨w, _, rfl⟩ | ⟨p, hp, h⟩
        · exact ⟨fun _ => rfl, rfl⟩
        · have hne := hx m rfl p.1 (List.fst_mem_of_mem_zipIdx hp)
          split at h
          · split at h
            · simp at h
            · simp only [List.mem_append] at h
              rcases h with (h | h) | h
              · split at h <;> simp at h; subst h; exact ⟨fun _ => rfl, rfl⟩
              · split at h <;> simp at h; subst h; exact ⟨fun _ => rfl, rfl⟩
              · simp at h; subst h; exact ⟨fun _ => rfl, rfl⟩
          · simp only [List.mem_cons, List.not_mem_nil, or_false] at h
            rcases h with rfl | rfl | rfl
            · exact ⟨fun k => by simp [onDisk, hne], rfl⟩
            · exact ⟨fun k => by simp [onDisk, hne], rfl⟩
            · exact ⟨fun _ => rfl, rfl⟩
  refine ⟨?_, fun a ha => (key a ha).2⟩
  generalize (generate fl dir named fails res).1 = as at key
  induction as generalizing k with
  | nil => rfl
  | cons a r ih =>
    simp only [diskAfter, List.foldl_cons] at ih ⊢
    rw [ih _ fun a ha => key a (by simp [ha])]
    exact (key a (by simp)).1 k

/-- **C43** (`automigrate`).  With warnings that were not accepted, and in every dry run, nothing is
executed; no file is ever written. -/
theorem automigrate_blocked (fl : Flags) (fails : Fails) (res : Except Str Migration) (k : Disk) :
    diskAfter k (automigrate fl fails res).1 = k ∧
    ((fl.dryRun = true ∨
        ∃ m, res = .ok m ∧ m.warnings ≠ [] ∧ fl.acceptWarnings = false) →
      ∀ a ∈ (automigrate fl fails res).1, executes a = false) := by
  have key : ∀ a ∈ (automigrate fl fails res).1,
      onDisk k a = k ∧ ((fl.dryRun = true ∨
        ∃ m, res = .ok m ∧ m.warnings ≠ [] ∧ fl.acceptWarnings = false) → executes a = false) := by
    intro a ha
    cases res with
    | error e => simp [automigrate] at ha
    | ok m =>
      simp only [automigrate] at ha
      split at ha
      · simp at ha
      · split at ha
        · simp at ha
        · rename_i hw
          have := acts_mem _ _ ha
          simp only [List.mem_append, List.mem_map] at this
          rcases this with ⟨w, _, rfl⟩ | h
          · exact ⟨rfl, fun _ => rfl⟩
          · split at h
            · simp only [List.mem_flatMap, previewFile] at h
              obtain ⟨p, _, h⟩ := h
              split at h
              · simp at h
              · simp only [List.mem_append] at h
                rcases h with (h | h) | h
                · split at h <;> simp at h; subst h; exact ⟨rfl, fun _ => rfl⟩
                · split at h <;> simp at h; subst h; exact ⟨rfl, fun _ => rfl⟩
                · simp at h; subst h; exact ⟨rfl, fun _ => rfl⟩
            · rename_i hd
              simp at h; subst h
              refine ⟨rfl, fun hb => ?_⟩
              rcases hb with hb | ⟨m', hm, h1, h2⟩
              · exact absurd hb hd
              · cases hm
                exact absurd ⟨h1, h2, by simpa using hd⟩ hw
  exact ⟨diskAfter_id _ _ fun a ha => (key a ha).1, fun h a ha => (key a ha).2 h⟩

/-- Without a dry run, `automigrate` without error has executed all files of the migration in one
migrate run. -/
theorem automigrate_executes (fl : Flags) (fails : Fails) (m : Migration)
    (hd : fl.dryRun = false) (hok : (automigrate fl fails (.ok m)).2 = none) :
    (automigrate fl fails (.ok m)).1.filter executes =
      if m.files = [] then [] else [.migrate m.files] := by
  by_cases hf : m.files = []
  · simp [automigrate, hf]
  · simp only [automigrate, hf, if_false, hd] at hok ⊢
    split
    · rename_i h; rw [if_pos h] at hok; simp at hok
    · rename_i h
      rw [if_neg h] at hok
      rw [acts_ok _ _ [] hok]
      simp only [List.nil_append, List.filter_append]
      rw [List.filter_eq_nil_iff.2]
      · simp [executes]
      · intro a ha
        simp only [List.mem_map] at ha
        obtain ⟨w, _, rfl⟩ := ha
        simp [executes]

/-! ### Examples -/

/-- A migration with two scripts, one undo script and a warning. -/
def sampleMigration : Migration :=
  { files := [(b!"1_01_tables.sql", b!"CREATE TABLE a (b INT);\n"),
      (b!"1_01_tables.undo.sql", b!"DROP TABLE a;\n"), (b!"1_02.sql", b!"CREATE INDEX c ON a (b);\n")]
    warnings := [b!"unsafe"] }

example : generate {} b!"dir" true (fun _ => none) (.ok sampleMigration) =
    ([], some (b!"warnings present (to proceed despite the warnings, use the -accept-warnings flag):\nunsafe")) := by
  decide +kernel

example : printed (generate { dryRun := true } b!"dir" true (fun _ => none)
      (.ok sampleMigration)).1 =
    b!"-- dir/1_01_tables.sql\nCREATE TABLE a (b INT);\n\n-- dir/1_02.sql\nCREATE INDEX c ON a (b);\n" := by
  decide +kernel

example : (generate { acceptWarnings := true } b!"dir" true (fun _ => none)
      (.ok sampleMigration)).2 = none ∧ (sampleMigration.files.map Prod.fst).Nodup := by
  decide +kernel

/-- The disk is full at the second file: the first file is there, the second is empty, the third
does not exist. -/
example :
    let t := (generate { acceptWarnings := true } [] true
      (fun done => if done.getLast? = some (.writeFile b!"1_01_tables.undo.sql" b!"DROP TABLE a;\n")
        then some b!"full" else none)
      (.ok sampleMigration)).1
    diskAfter (fun _ => none) (t.dropLast) b!"1_01_tables.undo.sql" = some [] ∧
    diskAfter (fun _ => none) t b!"1_02.sql" = none := by
  decide +kernel

example : (automigrate { acceptWarnings := true } (fun _ => none) (.ok sampleMigration)).1.filter
    executes = [.migrate sampleMigration.files] := by
  decide +kernel

example : sampleMigration.warnings ≠ [] ∧
    (automigrate {} (fun _ => none) (.ok sampleMigration)).1 = [] ∧
    (automigrate { dryRun := true } (fun _ => none) (.ok sampleMigration)).1.length = 6 := by
  decide +kernel

end Sqddl.Generate
