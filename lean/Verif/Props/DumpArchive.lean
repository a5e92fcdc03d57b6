import Verif.Model.Dump
import Verif.Spec.DumpArchive
import Verif.Props.Load

/-!
# Zip, tgz and directory: loading a dump runs what was dumped (C96)
-/

namespace DumpArchive
open Go Sqddl Sqddl.Load LoadSpec DumpSpec

/-- The name of a CSV file has no slash if the names of the table and the schema have none. -/
theorem csvFile_noslash {cur s n : Str} (hs : '/' ∉ s) (hn : '/' ∉ n) : '/' ∉ DumpCsv.csvFile cur s n := by
  unfold DumpCsv.csvFile
  split
  · simp [hs, hn]
  · simp [hn]

theorem csvFile_suffix (cur s n : Str) : hasSuffix (DumpCsv.csvFile cur s n) b!".csv" = true := by
  rw [hasSuffix_iff]
  unfold DumpCsv.csvFile
  split
  · exact ⟨s ++ b!"." ++ n, by simp⟩
  · exact ⟨n, rfl⟩

theorem role_suffix (r : Role) : hasSuffix r.file b!".csv" = false := by cases r <;> decide

section
variable {d : Dialect} {c : Catalog} {json : Str} {schemaOnly dataOnly : Bool} {data : List (Table × Str)}

/-- The text of an SQL file. -/
def textOf (d : Dialect) (c : Catalog) : Role → Str
  | .schema => Dump.dumpSchema d c
  | .indexes => Dump.dumpIndexes d c
  | .constraints => Dump.dumpConstraints d c

theorem mem_entries {e : Entry} :
    e ∈ Dump.entries d c json schemaOnly dataOnly data ↔
      ((schemaOnly || !dataOnly) = true ∧
        (e = ⟨b!"schema.json", json⟩ ∨ ∃ r : Role, e = ⟨r.file, textOf d c r⟩)) ∨
      (schemaOnly = false ∧ e ∈ Dump.csvEntries c.currentSchema data) := by
  unfold Dump.entries
  rw [List.mem_append]
  constructor
  · rintro (h | h)
    · split at h
      · refine .inl ⟨by assumption, ?_⟩
        simp only [List.mem_cons, List.not_mem_nil, or_false] at h
        rcases h with h | h | h | h
        · exact .inl h
        · exact .inr ⟨.schema, h⟩
        · exact .inr ⟨.indexes, h⟩
        · exact .inr ⟨.constraints, h⟩
      · cases h
    · split at h
      · cases h
      · exact .inr ⟨by simpa using ‹¬ schemaOnly = true›, h⟩
  · rintro (⟨h1, h2⟩ | ⟨h1, h2⟩)
    · left
      rw [if_pos h1]
      rcases h2 with rfl | ⟨r, rfl⟩
      · simp
      · cases r <;> simp [Role.file, textOf]
    · right
      rw [h1]
      exact h2

theorem csv_name {e : Entry} (hd : ∀ p ∈ data, '/' ∉ p.1.tableSchema ∧ '/' ∉ p.1.tableName)
    (h : e ∈ Dump.csvEntries c.currentSchema data) : '/' ∉ e.name ∧ hasSuffix e.name b!".csv" = true := by
  obtain ⟨p, hp, rfl⟩ := List.mem_map.1 h
  exact ⟨csvFile_noslash (hd p hp).1 (hd p hp).2, csvFile_suffix _ _ _⟩

theorem noslash {e : Entry} (hd : ∀ p ∈ data, '/' ∉ p.1.tableSchema ∧ '/' ∉ p.1.tableName)
    (h : e ∈ Dump.entries d c json schemaOnly dataOnly data) : '/' ∉ e.name := by
  rcases mem_entries.1 h with ⟨-, rfl | ⟨r, rfl⟩⟩ | ⟨-, h⟩
  · show '/' ∉ b!"schema.json"
    decide
  · exact role_noslash r
  · exact (csv_name hd h).1

theorem tidy {n : Str} (h : '/' ∉ n) (h1 : n ≠ []) (h2 : n ≠ b!".") (h3 : n ≠ b!"..") : Tidy n :=
  ⟨[n], by simp, by simp [RealPart, h, h1, h2, h3], by simp [join]⟩

theorem csv_real {n : Str} (h : hasSuffix n b!".csv" = true) : n ≠ [] ∧ n ≠ b!"." ∧ n ≠ b!".." := by
  refine ⟨?_, ?_, ?_⟩ <;> (rintro rfl; revert h; decide)

theorem entries_tidy {e : Entry} (hd : ∀ p ∈ data, '/' ∉ p.1.tableSchema ∧ '/' ∉ p.1.tableName)
    (h : e ∈ Dump.entries d c json schemaOnly dataOnly data) : Tidy e.name := by
  have h0 := noslash hd h
  rcases mem_entries.1 h with ⟨-, rfl | ⟨r, rfl⟩⟩ | ⟨-, h⟩
  · exact tidy h0 (by simp) (by simp) (by simp)
  · cases r <;> exact tidy h0 (by simp [Role.file]) (by simp [Role.file]) (by simp [Role.file])
  · obtain ⟨h1, h2, h3⟩ := csv_real (csv_name hd h).2
    exact tidy h0 h1 h2 h3

/-- The name of an entry of a dump that is at the top. -/
theorem at_top {archive file n : Str} (hn : '/' ∉ n) : AtTop archive file n ↔ n = file := by
  constructor
  · rintro (h | rfl)
    · exact h
    · simp at hn
  · exact .inl

/-- The entry that is one of the SQL files. -/
theorem role_entry {e : Entry} {r : Role} (hd : ∀ p ∈ data, '/' ∉ p.1.tableSchema ∧ '/' ∉ p.1.tableName) :
    (e ∈ Dump.entries d c json schemaOnly dataOnly data ∧ e.name = r.file) ↔
      (schemaOnly || !dataOnly) = true ∧ e = ⟨r.file, textOf d c r⟩ := by
  constructor
  · rintro ⟨h, hn⟩
    rcases mem_entries.1 h with ⟨h1, rfl | ⟨q, rfl⟩⟩ | ⟨-, h⟩
    · cases r <;> exact absurd hn (by simp [Role.file])
    · exact ⟨h1, by rw [role_inj q r hn]⟩
    · have := (csv_name hd h).2
      rw [hn, role_suffix] at this
      cases this
  · rintro ⟨h1, rfl⟩
    exact ⟨mem_entries.2 (.inl ⟨h1, .inr ⟨r, rfl⟩⟩), rfl⟩

theorem one_each {archive : Str} (hd : ∀ p ∈ data, '/' ∉ p.1.tableSchema ∧ '/' ∉ p.1.tableName) :
    OneEach archive (Dump.entries d c json schemaOnly dataOnly data) := by
  intro r
  have hcsv : ∀ e ∈ Dump.csvEntries c.currentSchema data, ¬ AtTop archive r.file e.name := by
    intro e he h
    have := csv_name hd he
    rw [at_top this.1] at h
    rw [h, role_suffix] at this
    cases this.2
  have hB : (if schemaOnly = true then [] else Dump.csvEntries c.currentSchema data).Pairwise fun a b =>
      ¬ (AtTop archive r.file a.name ∧ AtTop archive r.file b.name) := by
    split
    · exact List.Pairwise.nil
    · exact List.pairwise_of_forall_mem_list fun a ha b _ h => hcsv a ha h.1
  unfold Dump.entries
  rw [List.pairwise_append]
  refine ⟨?_, hB, ?_⟩
  · split
    · have hne : List.Pairwise (fun a b : Entry => a.name ≠ b.name)
          [{ name := b!"schema.json", text := json },
           { name := b!"schema.sql", text := Dump.dumpSchema d c },
           { name := b!"indexes.sql", text := Dump.dumpIndexes d c },
           { name := b!"constraints.sql", text := Dump.dumpConstraints d c }] := by simp
      refine hne.imp_of_mem ?_
      intro a b ha hb hab h
      have hs : ∀ e : Entry, e ∈ [({ name := b!"schema.json", text := json } : Entry),
           { name := b!"schema.sql", text := Dump.dumpSchema d c },
           { name := b!"indexes.sql", text := Dump.dumpIndexes d c },
           { name := b!"constraints.sql", text := Dump.dumpConstraints d c }] → '/' ∉ e.name := by
        simp
      exact hab (((at_top (hs a ha)).1 h.1).trans ((at_top (hs b hb)).1 h.2).symm)
    · exact List.Pairwise.nil
  · intro a _ b hb h
    split at hb
    · cases hb
    · exact hcsv b hb h.2

/-- The content of a dump. -/
def content (d : Dialect) (c : Catalog) (schemaOnly dataOnly : Bool) (data : List (Table × Str)) : Content where
  sql := if schemaOnly || !dataOnly then
    some (Dump.dumpSchema d c, Dump.dumpIndexes d c, Dump.dumpConstraints d c) else none
  csv := if schemaOnly then [] else
    data.map fun p => (DumpCsv.csvFile c.currentSchema p.1.tableSchema p.1.tableName, p.2)

theorem sqlJob_get {o : Option Entry} {b : Bool} {r : Role}
    (h : ∀ e, o = some e ↔ b = true ∧ e = ⟨r.file, textOf d c r⟩) :
    sqlJob o = if b then runs r.file (textOf d c r) else [] := by
  cases b with
  | false =>
    cases o with
    | none => rfl
    | some e => exact absurd ((h e).1 rfl).1 (by simp)
  | true =>
    rw [(h _).2 ⟨rfl, rfl⟩]
    rfl

/-- A load without an error, given what is in the plan. -/
theorem jobs_of {ok : Job → Bool} {order : Option (List Job → List Job)}
    (ho : ∀ f ∈ order, ∀ l, (f l).Perm l) {p : Plan}
    (h1 : ∀ (r : Role) e, p.get r = some e ↔
      (schemaOnly || !dataOnly) = true ∧ e = ⟨r.file, textOf d c r⟩)
    (h2 : p.csvs.Perm (if schemaOnly then [] else Dump.csvEntries c.currentSchema data))
    (h : (runPlan ok order p).2 = true) :
    JobsOf (content d c schemaOnly dataOnly data) (runPlan ok order p).1 := by
  obtain ⟨-, cs, hc, e⟩ := load_complete ok order ho p h
  have hcs : cs.Perm ((content d c schemaOnly dataOnly data).csv.map fun f => Job.csv f.1 f.2) := by
    refine hc.trans ((h2.map csvJob).trans (List.Perm.of_eq ?_))
    unfold content Dump.csvEntries
    cases schemaOnly
    · simp only [Bool.false_eq_true, if_false, List.map_map]
      rfl
    · rfl
  refine ⟨cs, hcs, ?_⟩
  rw [e, show p.schema = p.get .schema from rfl, show p.indexes = p.get .indexes from rfl,
    show p.constraints = p.get .constraints from rfl, sqlJob_get (h1 .schema), sqlJob_get (h1 .indexes),
    sqlJob_get (h1 .constraints)]
  unfold content
  cases schemaOnly || !dataOnly
  · simp
  · simp [Role.file, textOf]

theorem filter_csv {q : Entry → Bool} (hd : ∀ p ∈ data, '/' ∉ p.1.tableSchema ∧ '/' ∉ p.1.tableName)
    (hq : ∀ e, '/' ∉ e.name → q e = hasSuffix e.name b!".csv") :
    (Dump.entries d c json schemaOnly dataOnly data).filter q =
      if schemaOnly then [] else Dump.csvEntries c.currentSchema data := by
  unfold Dump.entries
  rw [List.filter_append]
  have ha : List.filter q (if (schemaOnly || !dataOnly) = true then
      [{ name := b!"schema.json", text := json },
       { name := b!"schema.sql", text := Dump.dumpSchema d c },
       { name := b!"indexes.sql", text := Dump.dumpIndexes d c },
       { name := b!"constraints.sql", text := Dump.dumpConstraints d c }] else []) = [] := by
    rw [List.filter_eq_nil_iff]
    intro e he
    split at he
    · simp only [List.mem_cons, List.not_mem_nil, or_false] at he
      have key : ∀ n : Str, '/' ∉ n → hasSuffix n b!".csv" = false → e.name = n → ¬ q e = true := by
        intro n h1 h2 h3
        rw [hq e (by rw [h3]; exact h1), h3, h2]
        simp
      rcases he with h | h | h | h
      · exact key b!"schema.json" (by decide) (by decide) (by rw [h])
      · exact key b!"schema.sql" (by decide) (by decide) (by rw [h])
      · exact key b!"indexes.sql" (by decide) (by decide) (by rw [h])
      · exact key b!"constraints.sql" (by decide) (by decide) (by rw [h])
    · cases he
  rw [ha, List.nil_append, List.filter_eq_self]
  intro e he
  split at he
  · cases he
  · have := csv_name hd he
    rw [hq e this.1, this.2]

variable (ok : Job → Bool) (order : Option (List Job → List Job)) (ho : ∀ f ∈ order, ∀ l, (f l).Perm l)
  (hd : ∀ p ∈ data, '/' ∉ p.1.tableSchema ∧ '/' ∉ p.1.tableName)
include ho hd

/-- C96, zip: a load of the archive that a dump wrote, under whatever name, that reports success ran
schema.sql, every CSV file once, indexes.sql and constraints.sql as they were dumped, in this order. -/
theorem dump_zip_load (archive : Str) (ha : '/' ∉ archive) (hm : archive ≠ b!"__MACOSX")
    (h : (runPlan ok order (planZip archive (Dump.entries d c json schemaOnly dataOnly data))).2 = true) :
    JobsOf (content d c schemaOnly dataOnly data)
      (runPlan ok order (planZip archive (Dump.entries d c json schemaOnly dataOnly data))).1 := by
  obtain ⟨h1, -, -⟩ := planZip_files archive (Dump.entries d c json schemaOnly dataOnly data)
    ha hm (one_each hd) (fun e he => entries_tidy hd he)
  refine jobs_of ho (fun r e => ?_) (List.Perm.of_eq (filter_csv hd ?_)) h
  · rw [h1 r e, ← role_entry (json := json) hd]
    exact ⟨fun ⟨a, b⟩ => ⟨a, (at_top (noslash hd a)).1 b⟩, fun ⟨a, b⟩ => ⟨a, .inl b⟩⟩
  · intro e he
    have hp : hasPrefix e.name b!"__MACOSX/" = false := by
      rw [← Bool.not_eq_true]
      intro hp
      obtain ⟨t, ht⟩ := List.isPrefixOf_iff_prefix.1 (show List.isPrefixOf _ _ = true from hp)
      exact he (by rw [← ht]; simp)
    rw [hp, Bool.not_false, Bool.true_and]
    unfold isTopCsv
    cases hs : hasSuffix e.name b!".csv" with
    | false => rfl
    | true =>
      obtain ⟨n1, n2, n3⟩ := csv_real hs
      have := (isTopCsv_iff archive e.name (tidy he n1 n2 n3)).2 ⟨e.name, he, (hasSuffix_iff _ _).1 hs, .inl rfl⟩
      unfold isTopCsv at this
      rw [hs] at this
      exact this

/-- C96, tgz. -/
theorem dump_tgz_load (archive : Str)
    (h : (runPlan ok order (planTgz archive (Dump.entries d c json schemaOnly dataOnly data))).2 = true) :
    JobsOf (content d c schemaOnly dataOnly data)
      (runPlan ok order (planTgz archive (Dump.entries d c json schemaOnly dataOnly data))).1 := by
  obtain ⟨h1, -, -⟩ := planTgz_files archive (Dump.entries d c json schemaOnly dataOnly data)
    (one_each hd) (fun e he => entries_tidy hd he)
  refine jobs_of ho (fun r e => ?_) (List.Perm.of_eq (filter_csv hd ?_)) h
  · rw [h1 r e, ← role_entry (json := json) hd]
    exact ⟨fun ⟨a, b⟩ => ⟨a, (at_top (noslash hd a)).1 b⟩, fun ⟨a, b⟩ => ⟨a, .inl b⟩⟩
  · intro e he
    unfold isTopCsv
    cases hs : hasSuffix e.name b!".csv" with
    | false => rfl
    | true =>
      obtain ⟨n1, n2, n3⟩ := csv_real hs
      have := (isTopCsv_iff archive e.name (tidy he n1 n2 n3)).2 ⟨e.name, he, (hasSuffix_iff _ _).1 hs, .inl rfl⟩
      unfold isTopCsv at this
      rw [hs] at this
      exact this

/-- C96, directory: `files` are the files of the directory in any order, and there were none before the
dump.  The names of the CSV files are distinct (C69). -/
theorem dump_dir_load (files : List Entry)
    (hf : files.Perm (Dump.entries d c json schemaOnly dataOnly data))
    (hn : (files.map Entry.name).Nodup) (h : (runPlan ok order (planDir files)).2 = true) :
    JobsOf (content d c schemaOnly dataOnly data) (runPlan ok order (planDir files)).1 := by
  obtain ⟨h1, -, -⟩ := planDir_files files hn
  refine jobs_of ho (fun r e => ?_) ?_ h
  · rw [h1 r e, ← role_entry (json := json) hd, hf.mem_iff]
  · refine (hf.filter _).trans (List.Perm.of_eq (filter_csv hd ?_))
    intro e _
    rfl

end

/-! ## An instance and a refutation -/

/-- A table with a column. -/
def tab (s n : Str) : Table :=
  { tableSchema := s, tableName := n,
    columns := [{ tableSchema := s, tableName := n, columnName := b!"id", columnType := b!"INT" }] }

def cat : Catalog :=
  { dialect := b!"postgres", currentSchema := b!"public",
    schemas := [{ schemaName := b!"public", tables := [tab b!"public" b!"t"] },
      { schemaName := b!"b", tables := [tab b!"b" b!"u"] }] }

def rows : List (Table × Str) := [(tab b!"public" b!"t", b!"id\n1\n"), (tab b!"b" b!"u", b!"id\n2\n")]

example : JobsOf (content .postgres cat false false rows) (runPlan (fun _ => true) (some List.reverse)
    (planZip b!"dump" (Dump.entries .postgres cat b!"{}" false false rows))).1 :=
  dump_zip_load (fun _ => true) _ (fun f hf l => by cases hf; exact List.reverse_perm l)
    (by decide) _ (by decide) (by decide) (by decide +kernel)

example : JobsOf (content .postgres cat false true rows) (runPlan (fun _ => true) none
    (planTgz b!"dump" (Dump.entries .postgres cat b!"{}" false true rows))).1 :=
  dump_tgz_load (fun _ => true) none (fun f hf => by cases hf) (by decide) _ (by decide +kernel)

example : JobsOf (content .postgres cat false false rows) (runPlan (fun _ => true) none
    (planDir (Dump.entries .postgres cat b!"{}" false false rows).reverse)).1 :=
  dump_dir_load (json := b!"{}") (fun _ => true) none (fun f hf => by cases hf) (by decide) _
    (List.reverse_perm _) (by decide +kernel) (by decide +kernel)

example : ((runPlan (fun _ => true) none
    (planTgz b!"dump" (Dump.entries .postgres cat b!"{}" false false rows))).1.map fun j =>
      match j with | .sql n _ => n | .csv n _ => n) =
    [b!"schema.sql", b!"t.csv", b!"b.u.csv", b!"indexes.sql", b!"constraints.sql"] := by decide +kernel

/-- C96 fails: the rows of a table whose name has a slash are in the archive, but a load does not read
them, and reports success. -/
theorem dump_slash_refuted : ∃ (c : Catalog) (data : List (Table × Str)), data ≠ [] ∧
    ¬ JobsOf (content .postgres c false true data) (runPlan (fun _ => true) none
      (planZip b!"dump" (Dump.entries .postgres c b!"{}" false true data))).1 ∧
    (runPlan (fun _ => true) none
      (planZip b!"dump" (Dump.entries .postgres c b!"{}" false true data))) = ([], true) ∧
    (runPlan (fun _ => true) none
      (planTgz b!"dump" (Dump.entries .postgres c b!"{}" false true data))) = ([], true) := by
  refine ⟨cat, [(tab b!"public" b!"in/out", b!"id\n1\n")], by simp, ?_, by decide +kernel,
    by decide +kernel⟩
  rintro ⟨cs, h1, h2⟩
  have h3 : (runPlan (fun _ => true) none (planZip b!"dump" (Dump.entries .postgres cat b!"{}" false true
    [(tab b!"public" b!"in/out", b!"id\n1\n")]))).1 = [] := by decide +kernel
  rw [h3] at h2
  have h4 : cs = [] := h2.symm
  rw [h4] at h1
  exact absurd h1.length_eq (by decide)

end DumpArchive
