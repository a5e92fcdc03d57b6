import Verif.Props.CatalogJson

/-!
# Sources of `generate`: samples, and where they are not read as they were written
-/

namespace Sqddl.Source
open Go CatalogJson CatalogTexts CatalogSpec

/-! ## A sample -/

/-- `café` -/
def cafe : Str := b!"caf" ++ [Char.ofNat 0xC3, Char.ofNat 0xA9]

theorem utf8_cafe : JsonText.Utf8 cafe :=
  ⟨[0x63, 0x61, 0x66, 0xE9], by intro n hn; unfold JsonText.Scalar; simp at hn; omega, by decide⟩

/-- A table with a key, a comment that needs escapes, a trigger with attributes, and an enum. -/
def shop : Catalog := {
  dialect := b!"postgres", versionNums := [14, 2], catalogName := b!"shop", currentSchema := b!"public"
  extensions := [b!"uuid-ossp@1.1"], extensionsValid := true
  schemas := [{
    schemaName := b!"public"
    tables := [{
      tableSchema := b!"public", tableName := cafe, comment := b!"a \"b\" <c> & \\d\n\te"
      columns := [
        { tableSchema := b!"public", tableName := cafe, columnName := b!"id", columnType := b!"INT"
          isNotNull := true, isPrimaryKey := true },
        { tableSchema := b!"public", tableName := cafe, columnName := b!"name", columnType := b!"TEXT" }]
      constraints := [{ tableSchema := b!"public", tableName := cafe, constraintName := b!"pk"
                        constraintType := b!"PRIMARY KEY", columns := [b!"id"] }]
      indexes := [{ tableSchema := b!"public", tableName := cafe, indexName := b!"ix", indexType := b!"BTREE"
                    columns := [b!"name"], descending := [false, true] }]
      triggers := [{ tableSchema := b!"public", tableName := cafe, triggerName := b!"tg"
                     attrs := [(b!"a", b!"1"), (b!"b", b!"")] }] }]
    enums := [{ enumSchema := b!"public", enumName := b!"mood", enumLabels := [b!"sad", b!"happy"] }] }] }

theorem shop_written : Written shop := by
  refine ⟨fun s hs => ?_, ?_⟩
  · have h : ∀ s ∈ catalogTexts shop, s = cafe ∨ ∀ c ∈ s, c.toNat < 0x80 := by decide +kernel
    rcases h s hs with rfl | h
    · exact utf8_cafe
    · exact utf8_ascii h
  · unfold Sorted
    decide +kernel

theorem shop_ok : Ok shop := by decide +kernel

/-- schema.json, an archive of each kind and a directory of the sample -/
def disk : Disk where
  file s := if s = b!"schema.json" ∨ s = b!"dump/schema.json" then some (schemaJson shop) else none
  isDir s := s == b!"dump"
  zip _ := some (Dump.entries .postgres shop (schemaJson shop) false false [])
  tgz _ := some (Dump.entries .postgres shop (schemaJson shop) true true [])
  structs _ _ := none
  database _ _ := none

example : decode (schemaJson shop) {} = some shop := schema_json_round_trip_partial shop_written

example : ∃ a b, catalogs disk [] b!"schema.json" [] b!"dump.zip" = some (a, b) ∧
    diffEvents .postgres a b true = [] :=
  generate_between_dumps_partial shop_written
    (.json b!"schema" rfl) (.zip b!"dump" .postgres false false [] (by decide) rfl)
    (by decide) (by decide) (by decide) (by decide) (by decide) (.inl ⟨.inr (.inl rfl), shop_ok⟩) true

example : catalogs disk b!"postgres" b!"dump.tgz" [] b!"schema.json" = some (shop, shop) :=
  generate_reads_dumps_partial shop_written shop_written
    (.tgz b!"dump" .postgres true true [] (by decide) rfl) (.json b!"schema" rfl)
    (by decide) (by decide) (by decide) (by decide) (by decide) (by decide) (by decide)

/-- The text of a small catalog. -/
example : schemaJson { dialect := b!"mysql", versionNums := [8, 0], defaultCollationValid := true } =
    b!"{\n  \"Dialect\": \"mysql\",\n  \"VersionNums\": [\n    8,\n    0\n  ],\n  \"DefaultCollationValid\": true\n}\n" := by
  decide +kernel

/-! ## Names that are not in UTF-8 -/

/-- Two tables whose names are not in UTF-8 (MySQL and SQLite keep such names). -/
def odd : Catalog := {
  dialect := b!"sqlite"
  schemas := [{ tables := [{ tableName := [Char.ofNat 0xFE] }, { tableName := [Char.ofNat 0xFF] }] }] }

/-- They have the same name when they are read again: the dump of a database is not its catalog. -/
theorem json_not_utf8_refuted :
    (odd.schemas.flatMap (·.tables)).map (·.tableName) = [[Char.ofNat 0xFE], [Char.ofNat 0xFF]] ∧
    ∃ c, decode (schemaJson odd) {} = some c ∧
      (c.schemas.flatMap (·.tables)).map (·.tableName) = [JsonText.encode 0xFFFD, JsonText.encode 0xFFFD] := by
  refine ⟨by decide, ?_⟩
  have h : (decode (schemaJson odd) {}).map (fun c => (c.schemas.flatMap (·.tables)).map (·.tableName)) =
      some [JsonText.encode 0xFFFD, JsonText.encode 0xFFFD] := by decide +kernel
  obtain ⟨c, hc, he⟩ := Option.map_eq_some_iff.1 h
  exact ⟨c, hc, he⟩

/-! ## Several sources -/

theorem getMembers_append {σ : Type} (fs : Fields σ) (a b : List (Str × JsonText.Json)) (x : σ) :
    getMembers fs (a ++ b) x = (getMembers fs a x).bind (getMembers fs b) := by
  induction a generalizing x with
  | nil => rfl
  | cons m a ih =>
    obtain ⟨k, j⟩ := m
    rw [List.cons_append, getMembers, getMembers]
    cases fs.lookup k with
    | none => exact ih x
    | some f =>
      dsimp only
      cases f j x with
      | none => rfl
      | some y => exact ih y

theorem getItems_length {α : Type} {f : JsonText.Json → α → Option α} {zero : α} :
    ∀ {xs : List JsonText.Json} {old ys : List α}, getItems f zero xs old = some ys → ys.length = xs.length
  | [], _, ys, h => by
    cases h
    rfl
  | x :: xs, old, ys, h => by
    rw [getItems, Option.bind_eq_some_iff] at h
    obtain ⟨y, -, h⟩ := h
    obtain ⟨zs, hz, rfl⟩ := Option.map_eq_some_iff.1 h
    simp [getItems_length hz]

/-- Of several JSON files, the last one decides how many schemas there are: those of the files before it are
overwritten one by one and the rest is lost. -/
theorem several_json_refuted {c1 c2 r : Catalog} (h2 : Written c2) (hs : c2.schemas ≠ [])
    (h : decode (schemaJson c2) c1 = some r) : r.schemas.length = c2.schemas.length := by
  unfold decode at h
  rw [schema_json_valid h2] at h
  have h : getMembers catalogFields (catalogMembers c2) c1 = some r := h
  delta catalogMembers at h
  rw [getMembers_append, Option.bind_eq_some_iff] at h
  obtain ⟨q, -, h⟩ := h
  unfold list at h
  rw [if_neg hs] at h
  have h : ((getItems (getRecord schemaFields) {} (c2.schemas.map schema) q.schemas).map
      fun y => { q with schemas := y }).bind (getMembers catalogFields []) = some r := h
  rw [Option.bind_eq_some_iff] at h
  obtain ⟨z, hz, hr⟩ := h
  obtain ⟨ys, hy, rfl⟩ := Option.map_eq_some_iff.1 hz
  cases hr
  simpa using getItems_length hy

/-- A file with one table, with the given name and the given column. -/
def one (t c : Str) (notNull : Bool) : Catalog := {
  dialect := b!"postgres", currentSchema := b!"public"
  schemas := [{ schemaName := b!"public", tables := [{
    tableSchema := b!"public", tableName := t
    columns := [{ tableSchema := b!"public", tableName := t, columnName := c, columnType := b!"INT"
                  isNotNull := notNull }] }] }] }

/-- Two files. -/
def two : Disk where
  file s := if s = b!"a.json" then some (schemaJson (one b!"users" b!"id" true))
    else if s = b!"b.json" then some (schemaJson (one b!"posts" b!"score" false)) else none
  isDir _ := false
  zip _ := none
  tgz _ := none
  structs _ _ := none
  database _ _ := none

/-- `generate -src a.json,b.json`: the table of the first file is gone, and the column of the second file is
NOT NULL because a column of the first is. -/
theorem several_sources_refuted :
    (writeAll two {} b!"a.json,b.json").map (fun c => c.schemas.flatMap (·.tables)) =
      some [{ tableSchema := b!"public", tableName := b!"posts"
              columns := [{ tableSchema := b!"public", tableName := b!"posts", columnName := b!"score"
                            columnType := b!"INT", isNotNull := true }] }] := by
  decide +kernel

/-- The hypotheses of `several_json_refuted`: two schemas become one. -/
example : ∃ r, decode (schemaJson (one b!"posts" b!"score" false))
      { schemas := [{ schemaName := b!"a" }, { schemaName := b!"b" }] } = some r ∧ r.schemas.length = 1 := by
  have h : (decode (schemaJson (one b!"posts" b!"score" false))
      { schemas := [{ schemaName := b!"a" }, { schemaName := b!"b" }] }).isSome = true := by decide +kernel
  obtain ⟨r, hr⟩ := Option.isSome_iff_exists.1 h
  refine ⟨r, hr, several_json_refuted ⟨fun s hs => utf8_ascii ?_, ?_⟩ (by decide) hr⟩
  · revert s
    decide +kernel
  · unfold Sorted
    decide +kernel

end Sqddl.Source
