import Verif.Model.Files
import Verif.Spec.Files

/-!
# C12 (selection of files), ordering part of C02, line endings of C07
-/

namespace Sqddl
open FileSpec

theorem hasSuffix_iff (s p : Str) : Go.hasSuffix s p = true ↔ EndsWith s p := by
  unfold Go.hasSuffix EndsWith
  rw [List.isSuffixOf_iff_suffix]
  exact ⟨fun ⟨a, h⟩ => ⟨a, h.symm⟩, fun ⟨a, h⟩ => ⟨a, h.symm⟩⟩

theorem hasPrefix_iff (s p : Str) : Go.hasPrefix s p = true ↔ ∃ a, s = p ++ a := by
  unfold Go.hasPrefix
  rw [List.isPrefixOf_iff_prefix]
  exact ⟨fun ⟨a, h⟩ => ⟨a, h.symm⟩, fun ⟨a, h⟩ => ⟨a, h.symm⟩⟩

theorem isRepeatable_iff (f : Str) : isRepeatable f = true ↔ Repeatable f := hasPrefix_iff _ _

theorem takeWhile_ne_append (b a : Str) (hb : '/' ∉ b) :
    (b ++ '/' :: a).takeWhile (· ≠ '/') = b := by
  induction b with
  | nil => simp
  | cons c b ih =>
    simp at hb
    simp [Ne.symm hb.1]
    simpa using ih hb.2

theorem takeWhile_ne_self (b : Str) (hb : '/' ∉ b) : b.takeWhile (· ≠ '/') = b := by
  induction b with
  | nil => simp
  | cons c b ih =>
    simp at hb
    simp [Ne.symm hb.1]
    simpa using ih hb.2

theorem baseName_eq_iff (f b : Str) (hb : '/' ∉ b) : baseName f = b ↔ IsNamed f b := by
  constructor
  · intro h
    unfold baseName at h
    have h' : f.reverse.takeWhile (· ≠ '/') = b.reverse := by rw [← h, List.reverse_reverse]
    have hd := List.takeWhile_append_dropWhile (p := (· ≠ '/')) (l := f.reverse)
    rw [h'] at hd
    cases hdw : f.reverse.dropWhile (· ≠ '/') with
    | nil =>
      rw [hdw, List.append_nil] at hd
      exact Or.inl (by simpa using (congrArg List.reverse hd).symm)
    | cons c t =>
      have hc := List.head_dropWhile_not (l := f.reverse) (· ≠ '/') (by rw [hdw]; simp)
      simp only [hdw, List.head_cons] at hc
      simp at hc; subst hc
      rw [hdw] at hd
      right
      refine ⟨t.reverse, ?_⟩
      have := congrArg List.reverse hd
      simp at this
      rw [← this]
  · rintro (rfl | ⟨a, rfl⟩)
    · unfold baseName
      rw [takeWhile_ne_self _ (by simpa using hb), List.reverse_reverse]
    · unfold baseName
      have : (a ++ '/' :: b).reverse = b.reverse ++ '/' :: a.reverse := by simp
      rw [this, takeWhile_ne_append _ _ (by simpa using hb), List.reverse_reverse]

theorem isMigrationFile_iff (f : Str) : isMigrationFile f = true ↔ IsMigration f := by
  unfold isMigrationFile IsMigration
  simp only [Bool.and_eq_true, Bool.not_eq_true', ← Bool.not_eq_true, hasSuffix_iff,
    Bool.or_eq_true, beq_iff_eq, baseName_eq_iff f _ (show '/' ∉ b!"schema.sql" by decide),
    baseName_eq_iff f _ (show '/' ∉ b!"indexes.sql" by decide),
    baseName_eq_iff f _ (show '/' ∉ b!"constraints.sql" by decide)]
  grind

theorem sortAndFilterLoop_eq (fs result repeatable : List Str) :
    sortAndFilterLoop fs result repeatable =
      result ++ fs.filter (fun f => isMigrationFile f && !isRepeatable f) ++
      (repeatable ++ fs.filter (fun f => isMigrationFile f && isRepeatable f)) := by
  induction fs generalizing result repeatable with
  | nil => simp [sortAndFilterLoop]
  | cons f fs ih =>
    rw [sortAndFilterLoop]
    by_cases h1 : isMigrationFile f = true <;> by_cases h2 : isRepeatable f = true <;>
      simp [h1, h2, ih]

theorem sortAndFilter_eq (fs : List Str) :
    sortAndFilter fs = fs.filter (fun f => isMigrationFile f && !isRepeatable f) ++
      fs.filter (fun f => isMigrationFile f && isRepeatable f) := by
  simp [sortAndFilter, sortAndFilterLoop_eq]

/-- C12.  A name is selected as often as it is listed if it is the name of a migration, and not at
all otherwise. -/
theorem sortAndFilter_count (names : List Str) (f : Str) :
    (IsMigration f → (sortAndFilter names).count f = names.count f) ∧
    (¬ IsMigration f → f ∉ sortAndFilter names) := by
  rw [← isMigrationFile_iff, sortAndFilter_eq]
  constructor
  · intro h
    rw [List.count_append]
    by_cases h2 : isRepeatable f = true
    · have e1 : (names.filter (fun f => isMigrationFile f && !isRepeatable f)).count f = 0 :=
        List.count_eq_zero_of_not_mem (by simp [h2])
      have e2 : (names.filter (fun f => isMigrationFile f && isRepeatable f)).count f = names.count f :=
        List.count_filter (by simp [h, h2])
      omega
    · have e1 : (names.filter (fun f => isMigrationFile f && !isRepeatable f)).count f = names.count f :=
        List.count_filter (by simp [h, h2])
      have e2 : (names.filter (fun f => isMigrationFile f && isRepeatable f)).count f = 0 :=
        List.count_eq_zero_of_not_mem (by simp [h2])
      omega
  · intro h hm
    simp [h] at hm

example : IsMigration b!"01_schema.sql" ∧ ¬ IsMigration b!"dir/schema.sql" ∧
    sortAndFilter [b!"repeatable/v.sql", b!"01_schema.sql", b!"dir/schema.sql", b!"02.undo.sql",
      b!"02.txoff.sql", b!"readme.md"] = [b!"01_schema.sql", b!"02.txoff.sql", b!"repeatable/v.sql"] := by
  refine ⟨?_, ?_, by decide +kernel⟩
  · rw [← isMigrationFile_iff]; decide +kernel
  · rw [← isMigrationFile_iff]; decide +kernel

/-- C02 (order of the selected files).  The selected files are the listed ones that are not
repeatable, in listed order, followed by the repeatable ones, in listed order. -/
theorem sortAndFilter_order (names : List Str) :
    ∃ l r, sortAndFilter names = l ++ r ∧ l.Sublist names ∧ r.Sublist names ∧
      (∀ f ∈ l, ¬ Repeatable f) ∧ (∀ f ∈ r, Repeatable f) := by
  refine ⟨_, _, sortAndFilter_eq names, List.filter_sublist, List.filter_sublist, ?_, ?_⟩
  · intro f hf
    simp at hf
    rw [← isRepeatable_iff]; simp [hf.2.2]
  · intro f hf
    simp at hf
    rw [← isRepeatable_iff]; simp [hf.2.2]

theorem sortAndFilter_nodup {names : List Str} (h : names.Nodup) : (sortAndFilter names).Nodup := by
  rw [sortAndFilter_eq, List.nodup_append]
  refine ⟨h.filter _, h.filter _, ?_⟩
  intro a ha b hb
  rintro rfl
  simp at ha hb
  simp [hb.2.2] at ha

theorem mem_sortAndFilter {names : List Str} {f : Str} :
    f ∈ sortAndFilter names ↔ f ∈ names ∧ IsMigration f := by
  rw [sortAndFilter_eq, ← isMigrationFile_iff]
  by_cases h : isRepeatable f = true <;> simp [h]

/-! ## line endings -/

theorem splitLF_ne_nil (s : Str) : splitLF s ≠ [] := by
  cases s with
  | nil => simp [splitLF]
  | cons c r =>
    rw [splitLF]; split
    · simp
    · split <;> simp

/-- inverse of `splitLF` -/
def joinLF : List Str → Str
  | [] => []
  | [l] => l
  | l :: m :: ls => l ++ '\n' :: joinLF (m :: ls)

theorem joinLF_splitLF (s : Str) : joinLF (splitLF s) = s := by
  induction s with
  | nil => rfl
  | cons c r ih =>
    rw [splitLF]
    have hne := splitLF_ne_nil r
    split
    · rename_i h; subst h
      cases hs : splitLF r with
      | nil => exact absurd hs hne
      | cons l ls => rw [hs] at ih; simp [joinLF, ih]
    · split
      · rename_i hs; exact absurd hs hne
      · rename_i l ls hs
        rw [hs] at ih
        cases ls with
        | nil => simp [joinLF] at *; exact ih
        | cons m ls => simp [joinLF] at *; exact ih

/-- lines by recursion: `lines` with the last line kept -/
def dropCRs : List Str → List Str
  | [] => []
  | [l] => [l]
  | l :: m :: ls => dropCR l :: dropCRs (m :: ls)

theorem lines_eq (s : Str) : lines s = dropCRs (splitLF s) := by
  unfold lines
  have : ∀ l : List Str, l ≠ [] → l.dropLast.map dropCR ++ l.getLast?.toList = dropCRs l := by
    intro l
    induction l with
    | nil => simp
    | cons a l ih =>
      intro _
      cases l with
      | nil => simp [dropCRs]
      | cons b l =>
        have := ih (by simp)
        simp only [dropCRs, List.dropLast_cons_cons, List.map_cons, List.cons_append,
          List.getLast?_cons_cons]
        rw [this]
  exact this _ (splitLF_ne_nil s)

theorem dropCR_cons {c d : Char} {l : Str} : dropCR (c :: d :: l) = c :: dropCR (d :: l) := by
  unfold dropCR
  simp only [List.getLast?_cons_cons]
  split <;> rfl

theorem crlf_cons (c : Char) (r : Str) (h : ¬ (c = '\r' ∧ r.head? = some '\n')) :
    crlfToLf (c :: r) = c :: crlfToLf r := by
  cases r with
  | nil => simp [crlfToLf]
  | cons d r =>
    rw [crlfToLf]
    intro r1 h1 h2
    simp at h2; exact h ⟨h1, by simp [h2.1]⟩

theorem splitLF_crlf (s : Str) : splitLF (crlfToLf s) = dropCRs (splitLF s) := by
  fun_induction crlfToLf s with
  | case1 r ih =>
    have hne := splitLF_ne_nil r
    have e : splitLF ('\r' :: '\n' :: r) = ['\r'] :: splitLF r := by simp [splitLF]
    rw [e]
    cases hs : splitLF r with
    | nil => exact absurd hs hne
    | cons l ls => simp [splitLF, ih, hs, dropCRs, dropCR]
  | case2 c r h ih =>
    have hne := splitLF_ne_nil r
    by_cases hc : c = '\n'
    · subst hc
      simp only [splitLF, if_true, ih]
      cases hs : splitLF r with
      | nil => exact absurd hs hne
      | cons l ls => simp [dropCRs, dropCR]
    · simp only [splitLF, hc, if_false, ih]
      cases hs : splitLF r with
      | nil => exact absurd hs hne
      | cons l ls =>
        cases ls with
        | nil => simp [dropCRs]
        | cons m ls =>
          simp only [dropCRs]
          cases l with
          | nil =>
            -- then r starts with a newline
            have hr : r.head? = some '\n' := by
              cases r with
              | nil => simp [splitLF] at hs
              | cons d r =>
                rw [splitLF] at hs
                split at hs
                · rename_i hd; simp [hd]
                · split at hs <;> simp at hs
            have hcr : c ≠ '\r' := by
              rintro rfl
              cases r with
              | nil => simp at hr
              | cons d r => simp at hr; subst hr; exact h _ rfl rfl
            simp [dropCR, hcr]
          | cons d l => simp [dropCR_cons]
  | case3 => rfl

/-- C07 (line endings).  Two files have the same checksum input iff they consist of the same
lines, where `\r\n` and `\n` both end a line. -/
theorem crlfToLf_eq_iff (a b : Str) : crlfToLf a = crlfToLf b ↔ lines a = lines b := by
  rw [lines_eq, lines_eq, ← splitLF_crlf, ← splitLF_crlf]
  constructor
  · intro h; rw [h]
  · intro h
    rw [← joinLF_splitLF (crlfToLf a), h, joinLF_splitLF]

example : lines b!"CREATE VIEW v\r\nAS SELECT 1;\n" = lines b!"CREATE VIEW v\nAS SELECT 1;\r\n" ∧
    lines b!"a\r\rb" ≠ lines b!"a\n\nb" := by decide

/-! ## C59: filename arguments -/

theorem trimPrefix_append (p s : Str) : Go.trimPrefix (p ++ s) p = s := by
  unfold Go.trimPrefix
  rw [if_pos ((hasPrefix_iff _ _).2 ⟨s, rfl⟩), List.drop_left]

theorem trimPrefix_none {p s : Str} (h : ¬ ∃ a, s = p ++ a) : Go.trimPrefix s p = s := by
  unfold Go.trimPrefix
  rw [if_neg]; rwa [hasPrefix_iff]

/-- C59.  A name that is given with the directory in front stands for the file in that directory. -/
theorem normalizeFilename_with_dir (dir f : Str) (h1 : dir ≠ []) (h2 : dir.head? ≠ some '.') :
    normalizeFilename (dir ++ '/' :: f) dir = f := by
  unfold normalizeFilename
  have hd : ∀ s : Str, (dir ++ s).head? ≠ some '.' := by
    intro s
    cases dir with
    | nil => exact absurd rfl h1
    | cons c r => simpa using h2
  have key : ∀ s : Str, s.head? ≠ some '.' → ¬ Go.hasPrefix s b!"." = true := by
    intro s hs
    rw [hasPrefix_iff]
    rintro ⟨a, rfl⟩
    simp at hs
  simp only [h1, if_false, key _ (hd _), key _ h2, Bool.false_eq_true]
  rw [trimPrefix_append]
  exact trimPrefix_append b!"/" f

/-- C59.  The same with `./` in front of the directory, in the name or in the option. -/
theorem normalizeFilename_with_dot (dir f : Str) (h1 : dir ≠ []) (h2 : dir.head? ≠ some '.') :
    normalizeFilename (b!"./" ++ dir ++ '/' :: f) dir = f ∧
    normalizeFilename (dir ++ '/' :: f) (b!"./" ++ dir) = f ∧
    normalizeFilename (b!"./" ++ dir ++ '/' :: f) (b!"./" ++ dir) = f := by
  have hn := normalizeFilename_with_dir dir f h1 h2
  have hdot : ∀ s : Str, Go.trimPrefix (Go.trimPrefix (b!"./" ++ s) b!".") b!"/" = s := by
    intro s
    have e1 : Go.trimPrefix (b!"./" ++ s) b!"." = b!"/" ++ s := trimPrefix_append b!"." (b!"/" ++ s)
    rw [e1, trimPrefix_append]
  have hpre : ∀ s : Str, Go.hasPrefix (b!"./" ++ s) b!"." = true := fun s => (hasPrefix_iff _ _).2 ⟨b!"/" ++ s, rfl⟩
  have hd : ∀ s : Str, ¬ Go.hasPrefix (dir ++ s) b!"." = true := by
    intro s
    rw [hasPrefix_iff]
    rintro ⟨a, e⟩
    cases dir with
    | nil => exact absurd rfl h1
    | cons c r => simp at e h2; exact h2 e.1
  have hd0 := hd []
  rw [List.append_nil] at hd0
  unfold normalizeFilename at hn ⊢
  simp only [h1, if_false, hd, hd0, Bool.false_eq_true] at hn
  have hne : ¬ (b!"./" ++ dir) = [] := by simp
  refine ⟨?_, ?_, ?_⟩
  · simp only [h1, if_false, hd0, List.append_assoc, hpre, if_true, hdot]; exact hn
  · simp only [hne, if_false, hpre, if_true, hdot, hd]; exact hn
  · simp only [hne, if_false, hpre, if_true, List.append_assoc, hdot]; exact hn

/-- C59 (part).  A name that is given without the directory is kept, unless it starts with the name of
the directory, a dot or a slash. -/
theorem normalizeFilename_plain_partial (dir f : Str) (h2 : f.head? ≠ some '.') (h3 : f.head? ≠ some '/')
    (h5 : dir.head? ≠ some '.') (h4 : dir ≠ [] → ¬ ∃ a, f = dir ++ a) :
    normalizeFilename f dir = f := by
  unfold normalizeFilename
  have key : ∀ (s : Str) (c : Char), s.head? ≠ some c → ¬ ∃ a, s = [c] ++ a := by
    rintro s c hs ⟨a, rfl⟩
    simp at hs
  have hk : ∀ s : Str, s.head? ≠ some '.' → ¬ Go.hasPrefix s b!"." = true := by
    intro s hs
    rw [hasPrefix_iff]
    exact key s '.' hs
  split
  · rfl
  · rename_i hd
    simp only [hk f h2, hk dir h5, if_false, Bool.false_eq_true]
    rw [trimPrefix_none (h4 hd), trimPrefix_none (key f '/' h3)]

/-- C59 fails: a file whose name starts with the name of the directory loses that part, and so does a
file whose name starts with a dot. -/
theorem normalizeFilename_refuted :
    normalizeFilename b!"db_init.sql" b!"db" = b!"_init.sql" ∧
    normalizeFilename b!"db/.x.sql" b!"./db" = b!".x.sql" ∧ normalizeFilename b!".x.sql" b!"db" = b!"x.sql" := by
  decide +kernel

example : normalizeFilename b!"./db/01.sql" b!"db" = b!"01.sql" ∧ normalizeFilename b!"repeatable/v.sql" b!"db" =
    b!"repeatable/v.sql" ∧ (¬ ∃ a, b!"repeatable/v.sql" = b!"db" ++ a) := by
  refine ⟨by decide +kernel, by decide +kernel, ?_⟩
  rintro ⟨a, h⟩
  simp at h

end Sqddl
