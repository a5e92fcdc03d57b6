import Verif.Spec.History
import Verif.Props.MigrateAgain
import Verif.Props.Batch

/-!
# C13 - C17, C57, C58: the commands on the history table
-/

namespace Sqddl
open HistorySpec

/-! ## C57: which files are found -/

theorem join_cons (s x : Str) (xs : List Str) (h : xs ≠ []) : Go.join s (x :: xs) = x ++ s ++ Go.join s xs := by
  cases xs with
  | nil => exact absurd rfl h
  | cons => rfl

theorem FileAt.ne_nil {es : Entries} {p : List Str} (h : FileAt es p) : p ≠ [] := by
  induction h with
  | here => simp
  | inside => simp
  | later _ _ _ _ _ ih => exact ih

theorem fileAt_cons_file {n rest p} : FileAt (.cons n .file rest) p ↔ p = [n] ∨ FileAt rest p := by
  constructor
  · intro h
    cases h with
    | here => simp
    | later _ _ _ _ h => exact .inr h
  · rintro (rfl | h)
    · exact .here _ _
    · exact .later _ _ _ _ h

theorem fileAt_cons_dir {n es rest p} :
    FileAt (.cons n (.dir es) rest) p ↔ (∃ q, p = n :: q ∧ FileAt es q) ∨ FileAt rest p := by
  constructor
  · intro h
    cases h with
    | inside _ _ _ q h => exact .inl ⟨q, rfl, h⟩
    | later _ _ _ _ h => exact .inr h
  · rintro (⟨q, rfl, h⟩ | h)
    · exact .inside _ _ _ _ h
    · exact .later _ _ _ _ h

theorem mem_walkRepeatable (path f : Str) (es : Entries) :
    f ∈ walkRepeatable path es ↔ ∃ p, FileAt es p ∧ f = path ++ '/' :: pathText p := by
  match es with
  | .nil =>
    simp only [walkRepeatable, List.not_mem_nil, false_iff]
    rintro ⟨p, h, _⟩; cases h
  | .cons n .file rest =>
    simp only [walkRepeatable, List.mem_cons, mem_walkRepeatable path f rest, fileAt_cons_file]
    constructor
    · rintro (rfl | ⟨p, h, rfl⟩)
      · exact ⟨[n], .inl rfl, rfl⟩
      · exact ⟨p, .inr h, rfl⟩
    · rintro ⟨p, rfl | h, rfl⟩
      · exact .inl rfl
      · exact .inr ⟨p, h, rfl⟩
  | .cons n (.dir es) rest =>
    simp only [walkRepeatable, List.mem_append, mem_walkRepeatable path f rest,
      mem_walkRepeatable (path ++ '/' :: n) f es, fileAt_cons_dir]
    constructor
    · rintro (⟨p, h, rfl⟩ | ⟨p, h, rfl⟩)
      · refine ⟨n :: p, .inl ⟨p, rfl, h⟩, ?_⟩
        rw [pathText, pathText, join_cons _ _ _ (FileAt.ne_nil h)]; simp
      · exact ⟨p, .inr h, rfl⟩
    · rintro ⟨p, ⟨q, rfl, h⟩ | h, rfl⟩
      · refine .inl ⟨q, h, ?_⟩
        rw [pathText, pathText, join_cons _ _ _ (FileAt.ne_nil h)]; simp
      · exact .inr ⟨p, h, rfl⟩

/-- C57.  The files found are exactly those of the directory itself and those anywhere below its
directory `repeatable`. -/
theorem mem_walkDir (es : Entries) (f : Str) :
    f ∈ walkDir es ↔ ∃ p, FileAt es p ∧ f = pathText p ∧
      (p.length = 1 ∨ p.head? = some b!"repeatable") := by
  match es with
  | .nil =>
    simp only [walkDir, List.not_mem_nil, false_iff]
    rintro ⟨p, h, _⟩; cases h
  | .cons n .file rest =>
    simp only [walkDir, List.mem_cons, mem_walkDir rest f, fileAt_cons_file]
    constructor
    · rintro (rfl | ⟨p, h, h2⟩)
      · exact ⟨[f], .inl rfl, rfl, .inl rfl⟩
      · exact ⟨p, .inr h, h2⟩
    · rintro ⟨p, rfl | h, h2⟩
      · exact .inl h2.1
      · exact .inr ⟨p, h, h2⟩
  | .cons n (.dir es) rest =>
    simp only [walkDir, List.mem_append, mem_walkDir rest f, fileAt_cons_dir]
    constructor
    · rintro (h | ⟨p, h, h2⟩)
      · split at h
        · rename_i hn
          obtain ⟨p, hp, rfl⟩ := (mem_walkRepeatable _ _ _).1 h
          refine ⟨n :: p, .inl ⟨p, rfl, hp⟩, ?_, by simp [hn]⟩
          rw [pathText, pathText, join_cons _ _ _ (FileAt.ne_nil hp)]; simp
        · simp at h
      · exact ⟨p, .inr h, h2⟩
    · rintro ⟨p, ⟨q, rfl, h⟩ | h, rfl, h2⟩
      · left
        have hq := FileAt.ne_nil h
        have : n = b!"repeatable" := by
          rcases h2 with h2 | h2
          · cases q <;> simp_all
          · simpa using h2
        rw [if_pos this, mem_walkRepeatable]
        exact ⟨q, h, by rw [pathText, pathText, join_cons _ _ _ hq]; simp⟩
      · exact .inr ⟨p, h, rfl, h2⟩

theorem FileAt.names {es : Entries} {p : List Str} (h : FileAt es p) : ∃ n q, p = n :: q ∧ n ∈ entryNames es := by
  induction h with
  | here n rest => exact ⟨n, [], rfl, by simp [entryNames]⟩
  | inside n es rest p _ _ => exact ⟨n, p, rfl, by simp [entryNames]⟩
  | later n x rest p _ ih => obtain ⟨m, q, h1, h2⟩ := ih; exact ⟨m, q, h1, by simp [entryNames, h2]⟩

theorem NamesOk.slash {es : Entries} (h : NamesOk es) : ∀ n ∈ entryNames es, '/' ∉ n := by
  match es with
  | .nil => simp [entryNames]
  | .cons n .file rest =>
    simp only [NamesOk] at h
    intro m hm; simp only [entryNames, List.mem_cons] at hm
    rcases hm with rfl | hm
    · exact h.1
    · exact NamesOk.slash h.2.2 m hm
  | .cons n (.dir es) rest =>
    simp only [NamesOk] at h
    intro m hm; simp only [entryNames, List.mem_cons] at hm
    rcases hm with rfl | hm
    · exact h.1
    · exact NamesOk.slash h.2.2.2 m hm

/-- the first name can be read off the text of a path -/
theorem pathText_head {n m : Str} {p q : List Str} (hn : '/' ∉ n) (hm : '/' ∉ m)
    (h : pathText (n :: p) = pathText (m :: q)) : n = m ∧ (p = [] ↔ q = []) := by
  have key : ∀ (n : Str) (p : List Str), '/' ∉ n →
      (pathText (n :: p)).takeWhile (· ≠ '/') = n ∧ ('/' ∈ pathText (n :: p) ↔ p ≠ []) := by
    intro n p hn
    cases p with
    | nil => exact ⟨takeWhile_ne_self n hn, by simpa [pathText, Go.join] using hn⟩
    | cons a p =>
      rw [pathText, join_cons _ _ _ (by simp)]
      refine ⟨?_, by simp⟩
      rw [List.append_assoc]
      exact takeWhile_ne_append n _ hn
  obtain ⟨h1, h2⟩ := key n p hn
  obtain ⟨h3, h4⟩ := key m q hm
  rw [h] at h1 h2
  refine ⟨h1.symm.trans h3, ?_⟩
  rw [h2] at h4
  grind

theorem walkRepeatable_nodup (path : Str) (es : Entries) (h : NamesOk es) : (walkRepeatable path es).Nodup := by
  match es with
  | .nil => simp [walkRepeatable]
  | .cons n .file rest =>
    have hs := NamesOk.slash h
    simp only [NamesOk] at h
    simp only [walkRepeatable, List.nodup_cons]
    refine ⟨?_, walkRepeatable_nodup path rest h.2.2⟩
    rw [mem_walkRepeatable]
    rintro ⟨p, hp, e⟩
    obtain ⟨m, q, rfl, hm⟩ := FileAt.names hp
    have e : pathText [n] = pathText (m :: q) := by simpa [pathText, Go.join] using e
    have := (pathText_head h.1 (NamesOk.slash h.2.2 m hm) e).1
    exact h.2.1 (this ▸ hm)
  | .cons n (.dir es) rest =>
    simp only [NamesOk] at h
    simp only [walkRepeatable, List.nodup_append]
    refine ⟨walkRepeatable_nodup _ es h.2.2.1, walkRepeatable_nodup path rest h.2.2.2, ?_⟩
    intro a ha b hb
    rintro rfl
    obtain ⟨p, hp, rfl⟩ := (mem_walkRepeatable _ _ _).1 ha
    obtain ⟨q, hq, e⟩ := (mem_walkRepeatable _ _ _).1 hb
    obtain ⟨m, q, rfl, hm⟩ := FileAt.names hq
    have e : pathText (n :: p) = pathText (m :: q) := by
      have : pathText (n :: p) = n ++ '/' :: pathText p := by
        rw [pathText, pathText, join_cons _ _ _ (FileAt.ne_nil hp)]; simp
      rw [this]
      simpa using e
    have := (pathText_head h.1 (NamesOk.slash h.2.2.2 m hm) e).1
    exact h.2.1 (this ▸ hm)

/-- C57.  No file is found twice. -/
theorem walkDir_nodup (es : Entries) (h : NamesOk es) : (walkDir es).Nodup := by
  match es with
  | .nil => simp [walkDir]
  | .cons n .file rest =>
    simp only [NamesOk] at h
    simp only [walkDir, List.nodup_cons]
    refine ⟨?_, walkDir_nodup rest h.2.2⟩
    rw [mem_walkDir]
    rintro ⟨p, hp, e, _⟩
    obtain ⟨m, q, rfl, hm⟩ := FileAt.names hp
    have := (pathText_head (n := n) (p := []) h.1 (NamesOk.slash h.2.2 m hm) e).1
    exact h.2.1 (this ▸ hm)
  | .cons n (.dir es) rest =>
    simp only [NamesOk] at h
    simp only [walkDir, List.nodup_append]
    refine ⟨?_, walkDir_nodup rest h.2.2.2, ?_⟩
    · split
      · exact walkRepeatable_nodup _ es h.2.2.1
      · simp
    intro a ha b hb
    rintro rfl
    split at ha
    · obtain ⟨p, hp, rfl⟩ := (mem_walkRepeatable _ _ _).1 ha
      obtain ⟨q, hq, e, _⟩ := (mem_walkDir _ _).1 hb
      obtain ⟨m, q, rfl, hm⟩ := FileAt.names hq
      have e : pathText (n :: p) = pathText (m :: q) := by
        have : pathText (n :: p) = n ++ '/' :: pathText p := by
          rw [pathText, pathText, join_cons _ _ _ (FileAt.ne_nil hp)]; simp
        rw [this]
        simpa using e
      have := (pathText_head h.1 (NamesOk.slash h.2.2.2 m hm) e).1
      exact h.2.1 (this ▸ hm)
    · simp at ha

/-- C57.  The files of the directory itself are found in the directory's order. -/
theorem walkDir_order (es : Entries) (h : NamesOk es) :
    (walkDir es).filter (fun f => decide ('/' ∉ f)) = rootFiles es := by
  match es with
  | .nil => rfl
  | .cons n .file rest =>
    simp only [NamesOk] at h
    simp only [walkDir, rootFiles]
    rw [List.filter_cons_of_pos (by simpa using h.1), walkDir_order rest h.2.2]
  | .cons n (.dir es) rest =>
    simp only [NamesOk] at h
    simp only [walkDir, rootFiles, List.filter_append]
    rw [walkDir_order rest h.2.2.2, List.filter_eq_nil_iff.2, List.nil_append]
    intro a ha
    split at ha
    · obtain ⟨p, _, rfl⟩ := (mem_walkRepeatable _ _ _).1 ha
      simp
    · simp at ha

/-- A directory with two migrations, a directory that is not looked into, and repeatables. -/
def sampleDir : Entries :=
  .cons b!"01.sql" .file <| .cons b!"old" (.dir (.cons b!"00.sql" .file .nil)) <|
  .cons b!"repeatable" (.dir (.cons b!"f.sql" .file (.cons b!"sub" (.dir (.cons b!"g.sql" .file .nil)) .nil))) <|
  .cons b!"zz.sql" .file .nil

example : NamesOk sampleDir ∧
    walkDir sampleDir = [b!"01.sql", b!"repeatable/f.sql", b!"repeatable/sub/g.sql", b!"zz.sql"] ∧
    rootFiles sampleDir = [b!"01.sql", b!"zz.sql"] := by
  refine ⟨?_, by decide +kernel, by decide +kernel⟩
  simp only [sampleDir, NamesOk, entryNames]
  decide +kernel

namespace Migrate
open MigrateSpec FileSpec

/-! ## C16, C17: rm and mv -/

theorem literalName_plain {d : Dialect} {f : Str} (h : PlainName d f) : literalName d f = some f := by
  rw [literalName, plain_reads d f h]

theorem rmStmt_plain {d : Dialect} {names : List Str} (hp : ∀ f ∈ names, PlainName d f) (h : History) :
    rmStmt d names h = some fun g => if g ∈ names then none else h g := by
  unfold rmStmt
  rw [if_pos]
  · congr 1
    funext g
    have : (names.any fun f => literalName d f == some g) = decide (g ∈ names) := by
      rw [Bool.eq_iff_iff]
      simp only [List.any_eq_true, beq_iff_eq, decide_eq_true_eq]
      constructor
      · rintro ⟨f, hf, e⟩
        rw [literalName_plain (hp f hf)] at e
        simp at e; exact e ▸ hf
      · intro hg
        exact ⟨g, hg, literalName_plain (hp g hg)⟩
    rw [this]
    by_cases hg : g ∈ names <;> simp [hg]
  · rw [List.all_eq_true]
    intro f hf
    rw [literalName_plain (hp f hf)]; rfl

/-- C16.  `rm`: on success exactly the rows of the given names are gone; on an error nothing
changed; if the process died, one of the two. -/
theorem rm_exact (d : Dialect) (env : Env) (names : List Str) (h : History)
    (hp : ∀ f ∈ names, PlainName d f) :
    ((rm d env true names h).1 = .ok → ∀ g, (rm d env true names h).2 g = if g ∈ names then none else h g) ∧
    ((rm d env true names h).1 = .error → (rm d env true names h).2 = h) ∧
    ((rm d env true names h).2 = h ∨ ∀ g, (rm d env true names h).2 g = if g ∈ names then none else h g) := by
  unfold rm
  rw [rmStmt_plain hp]
  by_cases hn : names = []
  · subst hn; simp
  · simp only [hn, if_false]
    cases env.res 0 <;> cases env.res 1 <;> simp

/-- C16, C17.  `rm` succeeds exactly if the database accepts its statements. -/
theorem rm_ok_iff (d : Dialect) (env : Env) (names : List Str) (h : History) (hn : names ≠ [])
    (hp : ∀ f ∈ names, PlainName d f) :
    (rm d env true names h).1 = .ok ↔ env.res 0 = .ok ∧ env.res 1 = .ok := by
  unfold rm
  rw [rmStmt_plain hp]
  simp only [hn, if_false]
  cases env.res 0 <;> cases env.res 1 <;> simp

/-- C17.  `rm` reports a rejected statement. -/
theorem rm_reports (d : Dialect) (env : Env) (ex : Bool) (names : List Str) (h : History) (hn : names ≠ [])
    (hr : env.res 0 = .fail ∨ (env.res 0 = .ok ∧ ex = true ∧
      (env.res 1 = .fail ∨ (env.res 1 = .ok ∧ rmStmt d names h = none)))) :
    rm d env ex names h = (.error, h) := by
  unfold rm
  simp only [hn, if_false]
  rcases hr with h0 | ⟨h0, rfl, h1 | ⟨h1, h2⟩⟩
  · rw [h0]
  · rw [h0, h1]; rfl
  · rw [h0, h1, h2]; rfl

/-- Sample environment: every call succeeds and every file has the same contents. -/
def envOk (c : Str) : Env := ⟨fun _ => .ok, fun _ => some c, fun s => s, fun n => n, fun _ => 0, fun _ => 0⟩

/-- Sample history. -/
def hist2 : History := fun f =>
  if f = b!"it's.sql" then some ⟨[], some 1, true⟩ else if f = b!"02.sql" then some ⟨[], some 2, false⟩ else none

theorem plain_samples (d : Dialect) : PlainName d b!"it's.sql" ∧ PlainName d b!"02.sql" ∧ PlainName d b!"03.sql" := by
  have key : ∀ f : Str, SqlSpec.readQuoted '\'' (escapeQuote '\'' f ++ ['\'']) = some (f, []) → '\\' ∉ f → PlainName d f := by
    intro f h1 h2
    exact ⟨(escapeQuote_reads_back_iff_partial '\'' f [] (by simp)).1 h1, fun _ => h2⟩
  exact ⟨key _ (by decide +kernel) (by decide), key _ (by decide +kernel) (by decide),
    key _ (by decide +kernel) (by decide)⟩

example : (∀ f ∈ [b!"it's.sql"], PlainName .mysql f) ∧
    (rm .mysql (envOk []) true [b!"it's.sql"] hist2).1 = .ok ∧
    (rm .mysql (envOk []) true [b!"it's.sql"] hist2).2 b!"it's.sql" = none ∧
    (rm .mysql (envOk []) true [b!"it's.sql"] hist2).2 b!"02.sql" = some ⟨[], some 2, false⟩ :=
  ⟨by simpa using (plain_samples .mysql).1, by decide +kernel⟩

/-- C16 fails for other names: `rm` of a name with two adjacent quotes deletes another row. -/
theorem rm_exact_refuted :
    ∃ (names : List Str) (h : History) (g : Str), g ∉ names ∧ h g ≠ none ∧
      (rm .postgres (envOk []) true names h).1 = .ok ∧ (rm .postgres (envOk []) true names h).2 g = none :=
  ⟨[b!"it''s.sql"], hist2, b!"it's.sql", by decide +kernel⟩

/-- C16.  `mv a b`, where `b` has no row yet: on success the row of `a` is now the row of `b`, and no
other row changed. -/
theorem mv_exact (d : Dialect) (env : Env) (a b : Str) (h : History) (ha : a ≠ []) (hb : b ≠ [])
    (hpa : PlainName d a) (hpb : PlainName d b) (hne : a ≠ b) (hfree : h b = none)
    (h0 : env.res 0 = .ok) (h1 : env.res 1 = .ok) :
    (mv d env true a b h).1 = .ok ∧
    (mv d env true a b h).2 b = h a ∧ (mv d env true a b h).2 a = none ∧
    ∀ g, g ≠ a → g ≠ b → (mv d env true a b h).2 g = h g := by
  have e : mvStmt d a b h = some fun g => if g = b then h a else if g = a then none else h g := by
    unfold mvStmt
    rw [literalName_plain hpa, literalName_plain hpb]
    cases hr : h a with
    | none =>
      simp only [hr]
      congr 1
      funext g
      grind
    | some r =>
      simp only [hr, hne, if_false, hfree]
      rfl
  unfold mv
  simp only [ha, hb, or_self, if_false, h0, h1, e]
  simp [hne]
  intro g h1 h2
  simp [h1, h2]

/-- C16.  Whatever happens, `mv` changes no row other than those of the two names, and the row of the
new name is never lost. -/
theorem mv_frame (d : Dialect) (env : Env) (ex : Bool) (a b : Str) (h : History)
    (hpa : PlainName d a) (hpb : PlainName d b) :
    (∀ g, g ≠ a → g ≠ b → (mv d env ex a b h).2 g = h g) ∧
    (∀ r, h b = some r → (mv d env ex a b h).2 = h) ∧
    ((mv d env ex a b h).1 = .error → (mv d env ex a b h).2 = h) := by
  have e : ∀ h', mvStmt d a b h = some h' →
      (∀ g, g ≠ a → g ≠ b → h' g = h g) ∧ (∀ r, h b = some r → h' = h) := by
    intro h' hh
    unfold mvStmt at hh
    rw [literalName_plain hpa, literalName_plain hpb] at hh
    dsimp only at hh
    split at hh
    · simp at hh; subst hh; simp
    · split at hh
      · simp at hh; subst hh; simp
      · split at hh
        · simp at hh
        · rename_i hx
          simp at hh; subst hh
          refine ⟨fun g h1 h2 => by simp [h1, h2], fun r hr => ?_⟩
          simp [hr] at hx
  unfold mv
  split
  · simp
  · split
    · simp
    · simp
    · simp
    · simp
    · split
      · simp
      · split
        · simp
        · simp
        · simp
        · simp
        · rename_i h' _ hh; have := e _ hh; simp_all
        · simp
        · rename_i h' _ hh; have := e _ hh; simp_all

example : PlainName .postgres b!"02.sql" ∧ PlainName .postgres b!"03.sql" ∧ hist2 b!"03.sql" = none ∧
    (mv .postgres (envOk []) true b!"02.sql" b!"03.sql" hist2).2 b!"03.sql" = some ⟨[], some 2, false⟩ :=
  ⟨(plain_samples _).2.1, (plain_samples _).2.2, by decide +kernel⟩

/-- C17 fails for `mv`: a rejected statement is not reported.  Here the new name is taken, so the
database rejects the UPDATE and nothing is renamed, but the command succeeds. -/
theorem mv_reports_refuted :
    ∃ (a b : Str) (h : History), mvStmt .sqlite a b h = none ∧
      (mv .sqlite (envOk []) true a b h).1 = .ok ∧ (mv .sqlite (envOk []) true a b h).2 a ≠ none :=
  ⟨b!"02.sql", b!"it's.sql", hist2, by decide +kernel⟩

/-- C17 fails for `mv` on every database error. -/
theorem mv_swallows_errors (d : Dialect) (env : Env) (a b : Str) (h : History) (ha : a ≠ []) (hb : b ≠ [])
    (h0 : env.res 0 = .ok) (h1 : env.res 1 = .fail) : mv d env true a b h = (.ok, h) := by
  unfold mv
  simp only [ha, hb, or_self, if_false, h0, h1]
  rfl

example : (mv .mysql ⟨fun n => if n = 1 then .fail else .ok, fun _ => none, id, id, id, id⟩ true b!"02.sql" b!"03.sql"
    hist2).1 = .ok := by decide +kernel

/-! ## C15, C17: touch -/

theorem historyBatches_go_append (a b : List (BatchInsert.Call (Str × Row))) :
    historyBatches.go (a ++ b) = historyBatches.go a ++ historyBatches.go b := by
  induction a with
  | nil => rfl
  | cons x a ih => cases x <;> simp [historyBatches.go, ih]

theorem historyBatches_go_batchCalls (bi : BatchInsert) (n : Nat) (l : List (Str × Row)) :
    historyBatches.go (bi.batchCalls n l) = [l] := by
  unfold BatchInsert.batchCalls
  split <;> simp [historyBatches.go]

theorem historyLoop_flatten (bi : BatchInsert) (rows : List (Str × Row)) (cnt : Nat) (args : List (Str × Row))
    (hc : cnt = 0 → args = []) :
    (historyBatches.go (bi.loop true cnt args (rows.map fun r => [r]))).flatten = args ++ rows := by
  induction rows generalizing cnt args with
  | nil =>
    simp only [List.map_nil, BatchInsert.loop]
    by_cases h : cnt > 0
    · simp [h, historyBatches_go_batchCalls]
    · have : cnt = 0 := by omega
      simp [this, hc this, historyBatches.go]
  | cons r rs ih =>
    simp only [List.map_cons, BatchInsert.loop]
    split
    · rw [historyBatches_go_append, historyBatches_go_batchCalls, List.flatten_append, ih 0 [] (by simp)]
      simp
    · rw [ih _ _ (by simp)]; simp

/-- the statements contain the rows in order -/
theorem historyBatches_flatten (d : Dialect) (rows : List (Str × Row)) : (historyBatches d rows).flatten = rows := by
  have := historyLoop_flatten (historyInsert d) rows 0 [] (by simp)
  simpa [historyBatches] using this

theorem foldl_upsert (rows : List (Str × Row)) (h : History) (g : Str) :
    (g ∉ rows.map Prod.fst → rows.foldl (fun h r => h.upsert r.1 r.2) h g = h g) ∧
    (g ∈ rows.map Prod.fst → ∃ r, (g, r) ∈ rows ∧ rows.foldl (fun h r => h.upsert r.1 r.2) h g = some r) := by
  induction rows generalizing h with
  | nil => simp
  | cons x rows ih =>
    obtain ⟨f, r⟩ := x
    simp only [List.map_cons, List.mem_cons, List.foldl_cons]
    obtain ⟨i1, i2⟩ := ih (h.upsert f r)
    constructor
    · intro hg
      rw [not_or] at hg
      rw [i1 hg.2, History.upsert, if_neg hg.1]
    · intro hg
      by_cases hm : g ∈ rows.map Prod.fst
      · obtain ⟨r', h1, h2⟩ := i2 hm
        exact ⟨r', .inr h1, h2⟩
      · have : g = f := hg.resolve_right hm
        subst this
        exact ⟨r, .inl rfl, by rw [i1 hm, History.upsert, if_pos rfl]⟩

theorem upsertStmts_ok (env : Env) (d : Dialect) (n : Nat) (bs : List (List (Str × Row))) (h : History) (n' : Nat)
    (h' : History) (hr : upsertStmts env d n bs h = .ok (n', h')) :
    h' = bs.flatten.foldl (fun h r => h.upsert r.1 r.2) h ∧ n' = n + bs.length ∧
    ∀ k, k < bs.length → env.res (n + k) = .ok := by
  induction bs generalizing n h with
  | nil => simp [upsertStmts] at hr; simp [hr]
  | cons b bs ih =>
    rw [upsertStmts] at hr
    split at hr
    · simp at hr
    · simp at hr
    · simp at hr
    · simp at hr
    · rename_i h0
      split at hr
      · simp at hr
      · rename_i h1 hs
        obtain ⟨e1, e2, e3⟩ := ih _ _ hr
        have hs2 : h1 = b.foldl (fun h r => h.upsert r.1 r.2) h := by
          unfold upsertStmt at hs
          dsimp only at hs
          simp only [Option.ite_none_right_eq_some, Option.some.injEq] at hs
          exact hs.2.symm
        refine ⟨by rw [e1, hs2]; simp, by simp only [List.length_cons]; omega, ?_⟩
        intro k hk
        cases k with
        | zero => exact h0
        | succ k =>
          have := e3 k (by simpa using hk)
          rwa [show n + (k + 1) = n + 1 + k by omega]

theorem upsertStmts_err (env : Env) (d : Dialect) (n : Nat) (bs : List (List (Str × Row))) (h : History)
    (e : CmdRes) (hu : upsertStmts env d n bs h = .error e) : e ≠ .ok := by
  induction bs generalizing n h with
  | nil => simp [upsertStmts] at hu
  | cons b bs ih =>
    rw [upsertStmts] at hu
    split at hu
    · simp at hu; simp [← hu]
    · simp at hu; simp [← hu]
    · simp at hu; simp [← hu]
    · simp at hu; simp [← hu]
    · split at hu
      · simp at hu; simp [← hu]
      · exact ih _ _ hu

theorem touchRows_spec (env : Env) (now : Nat) (buf : Str) (fs : List Str) (rows : List (Str × Row))
    (h : touchRows env now buf fs = some rows) :
    rows.map Prod.fst = fs ∧ ∀ x ∈ rows, x.2.success = true ∧ x.2.startedAt = some now ∧
      (Repeatable x.1 → ∃ c, env.files x.1 = some c ∧ x.2.checksum = env.sha (crlfToLf c)) := by
  induction fs generalizing buf rows with
  | nil => simp [touchRows] at h; simp [h]
  | cons f fs ih =>
    rw [touchRows] at h
    split at h
    · rename_i hr
      split at h
      · simp at h
      · rename_i c hc
        rw [Option.map_eq_some_iff] at h
        obtain ⟨rs, h1, rfl⟩ := h
        obtain ⟨i1, i2⟩ := ih _ _ h1
        refine ⟨by simp [i1], ?_⟩
        intro x hx
        rw [List.mem_cons] at hx
        rcases hx with rfl | hx
        · exact ⟨rfl, rfl, fun _ => ⟨c, hc, rfl⟩⟩
        · exact i2 x hx
    · rename_i hr
      rw [Option.map_eq_some_iff] at h
      obtain ⟨rs, h1, rfl⟩ := h
      obtain ⟨i1, i2⟩ := ih _ _ h1
      refine ⟨by simp [i1], ?_⟩
      intro x hx
      rw [List.mem_cons] at hx
      rcases hx with rfl | hx
      · refine ⟨rfl, rfl, fun h => absurd ((isRepeatable_iff f).2 h) hr⟩
      · exact i2 x hx

/-- The checksum field of a file that is not repeatable is empty although the row buffer is reused:
the files that are not repeatable come first. -/
theorem touchRows_nonrepeatable (env : Env) (now : Nat) (l r : List Str) (rows : List (Str × Row))
    (hl : ∀ f ∈ l, ¬ Repeatable f) (hr : ∀ f ∈ r, Repeatable f)
    (h : touchRows env now [] (l ++ r) = some rows) :
    ∀ x ∈ rows, ¬ Repeatable x.1 → x.2.checksum = [] := by
  induction l generalizing rows with
  | nil =>
    intro x hx hn
    obtain ⟨e, _⟩ := touchRows_spec _ _ _ _ _ h
    exact absurd (hr x.1 (by rw [List.nil_append] at e; rw [← e]; exact List.mem_map_of_mem hx)) hn
  | cons f l ih =>
    rw [List.cons_append, touchRows] at h
    rw [if_neg (by rw [isRepeatable_iff]; exact hl f (by simp)), Option.map_eq_some_iff] at h
    obtain ⟨rs, h1, rfl⟩ := h
    intro x hx hn
    rw [List.mem_cons] at hx
    rcases hx with rfl | hx
    · rfl
    · exact ih _ (fun f hf => hl f (by simp [hf])) h1 x hx hn

/-- What a completed `touch` leaves behind: one row per migration among the names. -/
structure Touched (env : Env) (names : List Str) (h h' : History) : Prop where
  frame : ∀ g, ¬ (g ∈ names ∧ IsMigration g) → h' g = h g
  rows : ∀ f ∈ names, IsMigration f → ∃ r, h' f = some r ∧ r.success = true ∧ r.startedAt = some (env.now 1) ∧
    (Repeatable f → ∃ c, env.files f = some c ∧ r.checksum = env.sha (crlfToLf c)) ∧
    (¬ Repeatable f → r.checksum = [])

theorem touch_cases (d : Dialect) (env : Env) (ex : Bool) (names : List Str) (h : History) :
    (touch d env ex names h).2 = h ∧ (touch d env ex names h).1 ≠ .ok ∨
    (touch d env ex names h).1 ≠ .error ∧ Touched env names h (touch d env ex names h).2 := by
  unfold touch
  split
  · simp
  · simp
  · simp
  · simp
  · split
    · simp
    · split
      · simp
      · simp
      · simp
      · simp
      · split
        · simp
        · rename_i rows hrows
          have key : ∀ n h', upsertStmts env d 2 (historyBatches d rows) h = .ok (n, h') →
              Touched env names h h' := by
            intro n h' hu
            obtain ⟨e, _⟩ := upsertStmts_ok _ _ _ _ _ _ _ hu
            rw [historyBatches_flatten] at e
            obtain ⟨s1, s2⟩ := touchRows_spec _ _ _ _ _ hrows
            obtain ⟨l, r, hlr, _, _, hl, hr⟩ := sortAndFilter_order names
            rw [hlr] at hrows
            have s3 := touchRows_nonrepeatable _ _ _ _ _ hl hr hrows
            constructor
            · intro g hg
              rw [← mem_sortAndFilter, ← s1] at hg
              rw [e]; exact (foldl_upsert rows h g).1 hg
            · intro f hf hm
              have := mem_sortAndFilter.2 ⟨hf, hm⟩
              rw [← s1] at this
              obtain ⟨r, hr1, hr2⟩ := (foldl_upsert rows h f).2 this
              obtain ⟨q1, q2, q3⟩ := s2 _ hr1
              exact ⟨r, by rw [e]; exact hr2, q1, q2, q3, s3 _ hr1⟩
          split
          · rename_i e hu
            exact .inl ⟨rfl, upsertStmts_err _ _ _ _ _ _ hu⟩
          · rename_i n h' hu
            split
            · exact .inr ⟨by simp, key _ _ hu⟩
            · exact .inr ⟨by simp, key _ _ hu⟩
            · simp
            · simp
            · simp

/-- C15.  A successful `touch` writes one successful row for each migration among the names, for a
repeatable one with the checksum of its current contents, and changes no other row. -/
theorem touch_marks (d : Dialect) (env : Env) (ex : Bool) (names : List Str) (h : History)
    (hok : (touch d env ex names h).1 = .ok) : Touched env names h (touch d env ex names h).2 := by
  rcases touch_cases d env ex names h with ⟨_, h2⟩ | ⟨_, h2⟩
  · exact absurd hok h2
  · exact h2

/-- C15, C17.  A `touch` that fails changes nothing; if the process dies, the names are touched or
nothing changed. -/
theorem touch_all_or_nothing (d : Dialect) (env : Env) (ex : Bool) (names : List Str) (h : History) :
    ((touch d env ex names h).1 = .error → (touch d env ex names h).2 = h) ∧
    ((touch d env ex names h).2 = h ∨ Touched env names h (touch d env ex names h).2) := by
  rcases touch_cases d env ex names h with ⟨h1, h2⟩ | ⟨h1, h2⟩
  · exact ⟨fun _ => h1, .inl h1⟩
  · exact ⟨fun h => absurd h h1, .inr h2⟩

/-- C15.  The touched files are not pending for `migrate`, as long as the contents of the repeatable
ones have the same lines. -/
theorem touch_then_migrate (d : Dialect) (env env2 : Env) (ex : Bool) (names : List Str) (h : History)
    (cfg : Cfg) (hk : cfg.skipHistory = false) (names2 : List Str)
    (hok : (touch d env ex names h).1 = .ok) (hsha : env2.sha = env.sha)
    (f : Str) (hf : f ∈ names) (hm : IsMigration f)
    (hsame : Repeatable f → ∀ c, env.files f = some c → ∃ c2, env2.files f = some c2 ∧ lines c2 = lines c) :
    f ∉ pending cfg env2 (touch d env ex names h).2 names2 := by
  obtain ⟨r, h1, h2, h3, h4, _⟩ := (touch_marks d env ex names h hok).rows f hf hm
  rw [mem_pending]
  rintro ⟨_, _, h5 | h5⟩
  · simp [hk] at h5
  · refine h5 ⟨r, h1, h2, fun hr => ?_⟩
    obtain ⟨c, hc, hs⟩ := h4 hr
    obtain ⟨c2, hc2, hl⟩ := hsame hr c hc
    exact ⟨c2, hc2, by rw [hs, hsha, (crlfToLf_eq_iff _ _).2 hl]⟩

/-- C15.  Touching twice is the same as touching once, up to times. -/
theorem touch_twice (d : Dialect) (env env2 : Env) (ex ex2 : Bool) (names : List Str) (h : History)
    (hsame : SameFiles env env2)
    (hok : (touch d env ex names h).1 = .ok)
    (hok2 : (touch d env2 ex2 names (touch d env ex names h).2).1 = .ok) (g : Str) :
    SameUpToTime ((touch d env2 ex2 names (touch d env ex names h).2).2 g) ((touch d env ex names h).2 g) := by
  have t1 := touch_marks d env ex names h hok
  have t2 := touch_marks d env2 ex2 names _ hok2
  by_cases hg : g ∈ names ∧ IsMigration g
  · obtain ⟨r, a1, a2, a3, a4, a5⟩ := t1.rows g hg.1 hg.2
    obtain ⟨s, b1, b2, b3, b4, b5⟩ := t2.rows g hg.1 hg.2
    rw [a1, b1]
    refine ⟨?_, by rw [a2, b2], by simp [a3, b3]⟩
    by_cases hr : Repeatable g
    · obtain ⟨c, hc, h1⟩ := a4 hr
      obtain ⟨c2, hc2, h2⟩ := b4 hr
      rw [hsame.1, hc] at hc2
      simp at hc2; subst hc2
      rw [h1, h2, hsame.2]
    · rw [a5 hr, b5 hr]
  · rw [t2.frame g hg]
    generalize (touch d env ex names h).2 g = o
    cases o <;> simp [SameUpToTime]

/-- C17.  `touch` reports every failing call and every rejected statement. -/
theorem touch_reports (d : Dialect) (env : Env) (ex : Bool) (names : List Str) (h : History)
    (hok : (touch d env ex names h).1 = .ok) :
    env.res 0 = .ok ∧ env.res 1 = .ok ∧
    ∃ rows, touchRows env (env.now 1) [] (sortAndFilter names) = some rows ∧
      ∀ k, k ≤ (historyBatches d rows).length → env.res (2 + k) = .ok := by
  unfold touch at hok
  split at hok
  · simp at hok
  · simp at hok
  · simp at hok
  · simp at hok
  · rename_i h0
    split at hok
    · simp at hok
    · split at hok
      · simp at hok
      · simp at hok
      · simp at hok
      · simp at hok
      · rename_i h1
        refine ⟨h0, h1, ?_⟩
        split at hok
        · simp at hok
        · rename_i rows hrows
          refine ⟨rows, hrows, ?_⟩
          split at hok
          · rename_i e hu
            exfalso
            exact upsertStmts_err _ _ _ _ _ _ hu hok
          · rename_i n h' hu
            obtain ⟨_, e, e2⟩ := upsertStmts_ok _ _ _ _ _ _ _ hu
            intro k hk
            by_cases hk2 : k < (historyBatches d rows).length
            · exact e2 k hk2
            · have : n = 2 + k := by omega
              subst this
              cases hres : env.res (2 + k) <;> simp [hres] at hok ⊢

example : (touch .postgres (envOk b!"A") true [b!"02.sql", b!"repeatable/v.sql", b!"x.txt"] hist2).1 = .ok ∧
    (touch .postgres (envOk b!"A") true [b!"02.sql", b!"repeatable/v.sql", b!"x.txt"] hist2).2 b!"02.sql" =
      some ⟨[], some 1, true⟩ ∧
    (touch .postgres (envOk b!"A") true [b!"02.sql", b!"repeatable/v.sql", b!"x.txt"] hist2).2 b!"repeatable/v.sql" =
      some ⟨b!"A", some 1, true⟩ ∧
    (touch .postgres (envOk b!"A") true [b!"02.sql", b!"repeatable/v.sql", b!"x.txt"] hist2).2 b!"x.txt" = none := by
  decide +kernel

/-- Naming a file twice makes `touch` fail on Postgres. -/
theorem touch_twice_named_refuted :
    (touch .postgres (envOk []) true [b!"02.sql", b!"02.sql"] hist2).1 = .error := by decide +kernel

end Migrate
end Sqddl
