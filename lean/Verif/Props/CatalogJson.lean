import Verif.Model.GenerateSource
import Verif.Model.Dump
import Verif.Lemmas.CatalogJson
import Verif.Props.DiffAlter
import Verif.Props.DiffSqlite

/-!
# `generate` reads what `dump` has written

schema.json is written by /repo/ddl/dump_cmd.go:332-343, 424-441, 531-547 and read by
/repo/ddl/generate_cmd.go:322-456.
-/

namespace Sqddl.Source
open Go CatalogJson CatalogTexts CatalogSpec

/-! ## The file -/

/-- The text of a catalog is valid JSON. -/
theorem schema_json_valid {c : Catalog} (h : Written c) :
    JsonText.read (schemaJson c) = some (CatalogJson.catalog c) :=
  JsonText.read_encodeJson (clean_catalog h.1)

/-- What is read into a catalog that only has a dialect and a current schema. -/
theorem decode_schemaJson {c : Catalog} (h : Written c) (d cur : Str) :
    decode (schemaJson c) { dialect := d, currentSchema := cur } =
      some { c with
        dialect := if c.dialect = [] then d else c.dialect
        currentSchema := if c.currentSchema = [] then cur else c.currentSchema } := by
  unfold decode
  rw [schema_json_valid h]
  exact get_catalog h.2 d cur

/-- A catalog that is written and read again is the same catalog. -/
theorem schema_json_round_trip_partial {c : Catalog} (h : Written c) : decode (schemaJson c) {} = some c := by
  have := decode_schemaJson h [] []
  rw [show ({ dialect := [], currentSchema := [] } : Catalog) = {} from rfl] at this
  rw [this]
  have e1 : (if c.dialect = [] then [] else c.dialect) = c.dialect := by grind
  have e2 : (if c.currentSchema = [] then [] else c.currentSchema) = c.currentSchema := by grind
  rw [e1, e2]

/-! ## The dump -/

/-- A source that `dump` made of a catalog: schema.json, an archive, or a directory. -/
inductive Holds (k : Disk) (c : Catalog) : Str → Prop
  | json (n : Str) : k.file (n ++ b!".json") = some (schemaJson c) → Holds k c (n ++ b!".json")
  | zip (n : Str) (d : Dialect) (schemaOnly dataOnly : Bool) (data : List (Table × Str)) :
    (dataOnly = true → schemaOnly = true) →
    k.zip (n ++ b!".zip") = some (Dump.entries d c (schemaJson c) schemaOnly dataOnly data) →
    Holds k c (n ++ b!".zip")
  | tgz (n : Str) (d : Dialect) (schemaOnly dataOnly : Bool) (data : List (Table × Str)) :
    (dataOnly = true → schemaOnly = true) →
    k.tgz (n ++ b!".tgz") = some (Dump.entries d c (schemaJson c) schemaOnly dataOnly data) →
    Holds k c (n ++ b!".tgz")
  | dir (s : Str) (d : Dialect) (schemaOnly dataOnly : Bool) (data : List (Table × Str)) :
    (dataOnly = true → schemaOnly = true) →
    (∀ x ∈ [b!".json", b!".go", b!".go.txt", b!".zip", b!".tgz", b!".tar.gz"], hasSuffix s x = false) →
    k.isDir s = true →
    (∀ e ∈ Dump.entries d c (schemaJson c) schemaOnly dataOnly data,
      k.file (s ++ b!"/" ++ e.name) = some e.text) →
    Holds k c s

theorem entries_head {d : Dialect} {c : Catalog} {j : Str} {schemaOnly dataOnly : Bool}
    {data : List (Table × Str)} (h : dataOnly = true → schemaOnly = true) :
    ∃ r, Dump.entries d c j schemaOnly dataOnly data = { name := b!"schema.json", text := j } :: r := by
  unfold Dump.entries
  have : (schemaOnly || !dataOnly) = true := by
    cases schemaOnly <;> cases dataOnly <;> simp at h ⊢
  rw [if_pos this]
  exact ⟨_, rfl⟩

theorem suffix_other {n x y : Str} (hx : x ≠ []) (h : x.reverse.head? ≠ y.reverse.head?) (hy : y ≠ []) :
    hasSuffix (n ++ y) x = false := by
  unfold hasSuffix List.isSuffixOf
  rw [List.reverse_append]
  have e1 : y.reverse ≠ [] := by simpa using hy
  have e2 : x.reverse ≠ [] := by simpa using hx
  generalize y.reverse = b at *
  generalize x.reverse = a at *
  cases a with
  | nil => exact absurd rfl e2
  | cons p a =>
    cases b with
    | nil => exact absurd rfl e1
    | cons q b =>
      simp only [List.head?_cons, ne_eq, Option.some.injEq] at h
      simp [List.isPrefixOf, h]

theorem suffix_same (n x : Str) : hasSuffix (n ++ x) x = true := by
  unfold hasSuffix
  rw [List.isSuffixOf_iff_suffix]
  exact ⟨n, rfl⟩

/-- Reading a source that `dump` made gives the catalog; -dialect is used if the catalog has none. -/
theorem source_of_dump {k : Disk} {c : Catalog} {s : Str} (hw : Written c) (h : Holds k c s) (d cur : Str) :
    writeCatalog k { dialect := d, currentSchema := cur } s =
      some { c with
        dialect := if c.dialect = [] then d else c.dialect
        currentSchema := if c.currentSchema = [] then cur else c.currentSchema } := by
  rw [← decode_schemaJson hw]
  unfold writeCatalog
  cases h with
  | json n hf => rw [if_pos (suffix_same n _), hf]; rfl
  | zip n d so dd data hs hf =>
    obtain ⟨r, hr⟩ := entries_head (d := d) (c := c) (j := schemaJson c) (data := data) hs
    rw [if_neg (by rw [suffix_other (by decide) (by decide) (by decide)]; decide),
      if_neg (by
        rw [suffix_other (by decide) (by decide) (by decide), suffix_other (by decide) (by decide) (by decide)]
        decide),
      if_pos (suffix_same n _), hf, hr]
    rfl
  | tgz n d so dd data hs hf =>
    obtain ⟨r, hr⟩ := entries_head (d := d) (c := c) (j := schemaJson c) (data := data) hs
    rw [if_neg (by rw [suffix_other (by decide) (by decide) (by decide)]; decide),
      if_neg (by
        rw [suffix_other (by decide) (by decide) (by decide), suffix_other (by decide) (by decide) (by decide)]
        decide),
      if_neg (by rw [suffix_other (by decide) (by decide) (by decide)]; decide),
      if_pos (by rw [suffix_same n]; rfl), hf, hr]
    rfl
  | dir s d so dd data hs hx hdir hf =>
    obtain ⟨r, hr⟩ := entries_head (d := d) (c := c) (j := schemaJson c) (data := data) hs
    have hfile := hf { name := b!"schema.json", text := schemaJson c } (by rw [hr]; simp)
    rw [List.append_assoc] at hfile
    rw [if_neg (by simp [hx]), if_neg (by simp [hx]), if_neg (by simp [hx]), if_neg (by simp [hx]),
      if_pos hdir]
    show (k.file (s ++ b!"/schema.json")).bind _ = _
    rw [show s ++ b!"/schema.json" = s ++ (b!"/" ++ b!"schema.json") from rfl, hfile]
    rfl

theorem split_single {s : Str} (h : ',' ∉ s) : split ',' s = [s] := by
  induction s with
  | nil => rfl
  | cons x s ih =>
    simp only [List.mem_cons, not_or] at h
    rw [split, if_neg (fun e => h.1 e.symm), ih h.2]

theorem writeAll_single {k : Disk} {c : Catalog} {s : Str} (h : ',' ∉ s) :
    writeAll k c s = writeCatalog k c s := by
  unfold writeAll
  rw [split_single h]
  simp [List.foldlM]

/-- `generate -src s -dest t`: each catalog is the one that was dumped. -/
theorem generate_reads_dumps_partial {k : Disk} {a b : Catalog} {s t dialect db : Str}
    (ha : Written a) (hb : Written b) (hs : Holds k a s) (ht : Holds k b t) (hsc : ',' ∉ s) (htc : ',' ∉ t)
    (hs0 : s ≠ []) (ht0 : t ≠ []) (had : a.dialect ≠ []) (hbd : b.dialect ≠ [])
    (hcur : b.currentSchema = [] → a.currentSchema = []) :
    catalogs k dialect s db t = some (a, b) := by
  unfold catalogs
  dsimp only
  rw [if_pos hs0, writeAll_single hsc,
    show ({ dialect } : Catalog) = { dialect := dialect, currentSchema := [] } from rfl,
    source_of_dump ha hs, if_neg had]
  have e1 : (if a.currentSchema = [] then [] else a.currentSchema) = a.currentSchema := by grind
  rw [e1]
  simp only [Option.bind_some]
  rw [if_pos ht0, writeAll_single htc, source_of_dump hb ht, if_neg hbd]
  have e2 : (if b.currentSchema = [] then a.currentSchema else b.currentSchema) = b.currentSchema := by grind
  rw [e2]
  rfl

/-- `generate` finds nothing to do between two dumps of the same database, in whatever form they are. -/
theorem generate_between_dumps_partial {k : Disk} {c : Catalog} {s t dialect db : Str} (hw : Written c)
    (hs : Holds k c s) (ht : Holds k c t) (hsc : ',' ∉ s) (htc : ',' ∉ t) (hs0 : s ≠ []) (ht0 : t ≠ [])
    (hd : c.dialect ≠ []) {d : Dialect} (hc : Server d ∧ Ok c ∨ d = .sqlite ∧ Ok (sqliteNameConstraints c))
    (drop : Bool) : ∃ a b, catalogs k dialect s db t = some (a, b) ∧ diffEvents d a b drop = [] := by
  refine ⟨c, c, generate_reads_dumps_partial hw hw hs ht hsc htc hs0 ht0 hd hd id, ?_⟩
  rcases hc with ⟨hv, hc⟩ | ⟨rfl, hc⟩
  · exact diff_self hv hc drop
  · exact sqlite_diff_self hc drop

/-! ## Dumps without a schema -/

theorem baseName_suffix {t x : Str} (h : '/' ∉ x) : ∃ u, baseName (t ++ x) = u ++ x := by
  unfold baseName
  rw [List.reverse_append, List.takeWhile_append_of_pos (by
    intro c hc
    have : c ∈ x := by simpa using hc
    simp only [decide_eq_true_eq]
    rintro rfl
    exact h this)]
  exact ⟨(t.reverse.takeWhile (· ≠ '/')).reverse, by simp⟩

/-- A dump that was made with -data-only is not taken for an empty schema. -/
theorem data_only_refused {k : Disk} {c c0 : Catalog} {n : Str} {d : Dialect} {data : List (Table × Str)}
    (h : k.zip (n ++ b!".zip") = some (Dump.entries d c (schemaJson c) false true data)) :
    writeCatalog k c0 (n ++ b!".zip") = none := by
  unfold writeCatalog
  rw [if_neg (by rw [suffix_other (by decide) (by decide) (by decide)]; decide),
      if_neg (by
        rw [suffix_other (by decide) (by decide) (by decide), suffix_other (by decide) (by decide) (by decide)]
        decide),
      if_pos (suffix_same n _), h]
  have : fromZip (Dump.entries d c (schemaJson c) false true data) = none := by
    unfold fromZip
    rw [Option.map_eq_none_iff, List.find?_eq_none]
    intro e he
    simp only [Dump.entries, Dump.csvEntries, Bool.false_or, Bool.not_true, Bool.false_eq_true, if_false,
      List.nil_append, List.mem_map] at he
    obtain ⟨⟨t, text⟩, -, rfl⟩ := he
    have hn : ∃ u, DumpCsv.csvFile c.currentSchema t.tableSchema t.tableName = u ++ b!".csv" := by
      unfold DumpCsv.csvFile
      by_cases hc : t.tableSchema ≠ [] ∧ t.tableSchema ≠ c.currentSchema
      · rw [if_pos hc]; exact ⟨_, (List.append_assoc _ _ _).symm⟩
      · rw [if_neg hc]; exact ⟨_, rfl⟩
    obtain ⟨u, hu⟩ := hn
    obtain ⟨v, hv⟩ := baseName_suffix (t := u) (x := b!".csv") (by decide)
    simp only [hu, hv, Bool.and_eq_true, beq_iff_eq, not_and]
    intro _ e
    have := congrArg (·.reverse.head?) e
    simp at this
  simp [this]

end Sqddl.Source
