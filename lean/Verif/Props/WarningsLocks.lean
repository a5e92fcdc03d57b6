import Verif.Props.Warnings

/-!
# Warnings about statements that take long on old Postgres servers (C72)

Before version 11 Postgres rewrites the table if a column with a default or an identity is added, and
before version 12 it reads the whole table to set NOT NULL.
-/

namespace TypeSpec

/-- The version of the server is known and before the major version `n`. -/
def Before (n : Int) (version : List Int) : Prop := ∃ v vs, version = v :: vs ∧ v < n

end TypeSpec

namespace Sqddl
open Go Sqddl.Files CatalogSpec TypeSpec Postgres

theorem lowerThan_before (n : Int) (version : List Int) :
    lowerThan version [n] = true ↔ Before n version := by
  cases version with
  | nil => simp [lowerThan, Before]
  | cons v vs =>
    have : lowerThan vs [] = false := by cases vs <;> rfl
    simp only [lowerThan, this, Before, List.cons.injEq]
    constructor
    · intro h
      refine ⟨v, vs, ⟨rfl, rfl⟩, ?_⟩
      grind
    · rintro ⟨v, vs, ⟨rfl, rfl⟩, h⟩
      rw [if_neg (by omega), if_pos h]

/-- **C72**: a new column is reported if and only if it has a default or an identity and the server is
older than version 11. -/
theorem pg_add_warned {src dest : Catalog} (hsrc : Ok src) (hdest : Ok dest) (drop : Bool)
    (isFloat : Str → Bool) (pre : Str) (w : Warning) :
    (w ∈ (Postgres.migration isFloat pre src dest drop).2 ∧
      (w.about = .addDefault ∨ w.about = .addIdentity)) ↔
    Before 11 src.versionNums ∧ ∃ p ∈ commonTables src dest, ∃ c ∈ liveColumns p.2,
      hasColumn p.1 c.columnName = false ∧
      (c.columnDefault ≠ [] ∧
          w = ⟨warnTable .postgres src.currentSchema p.2, quoteIdentifier .postgres c.columnName,
            .addDefault⟩ ∨
        c.columnDefault = [] ∧ c.columnIdentity ≠ [] ∧
          w = ⟨warnTable .postgres src.currentSchema p.2, c.columnIdentity, .addIdentity⟩) := by
  rw [pg_warnings_exact hsrc hdest, ← lowerThan_before]
  constructor
  · rintro ⟨hw, hk⟩
    obtain ⟨p, hp, hw⟩ := List.mem_flatMap.1 hw
    rcases List.mem_append.1 hw with hw | hw
    · obtain ⟨c, hc, hw⟩ := List.mem_flatMap.1 hw
      obtain ⟨hc, hno⟩ := List.mem_filter.1 hc
      unfold Postgres.addWarning at hw
      refine ⟨by grind, p, hp, c, hc, by simpa using hno, by grind⟩
    · obtain ⟨q, -, hw⟩ := List.mem_flatMap.1 hw
      obtain ⟨u, hu, rfl⟩ := List.mem_map.1 hw
      exfalso
      have hk : u = .addDefault ∨ u = .addIdentity := hk
      rcases List.mem_append.1 hu with hu | hu
      · clear hw
        unfold Postgres.typeWarnings Postgres.warnIf at hu
        grind
      · clear hw
        unfold Postgres.notNullWarnings Postgres.warnIf at hu
        grind
  · rintro ⟨hv, p, hp, c, hc, hno, h⟩
    refine ⟨List.mem_flatMap.2 ⟨p, hp, List.mem_append_left _ (List.mem_flatMap.2 ⟨c,
      List.mem_filter.2 ⟨hc, by simp [hno]⟩, ?_⟩)⟩, by grind⟩
    unfold Postgres.addWarning
    grind

/-- **C72**: a column is reported that is to become NOT NULL if the server is older than version 12.
Columns of the primary key are left out: they are not NULL already. -/
theorem pg_not_null_warned {src dest : Catalog} (hsrc : Ok src) (hdest : Ok dest) (drop : Bool)
    (isFloat : Str → Bool) (pre : Str) (hv : Before 12 src.versionNums) {p : Table × Table}
    (hp : p ∈ commonTables src dest) {q : Column × Column}
    (hq : q ∈ CatalogSpec.commonColumns p.1 p.2) (h1 : q.1.isNotNull = false)
    (h2 : q.2.isNotNull = true) (hk : q.2.isPrimaryKey = false) :
    ⟨warnTable .postgres src.currentSchema p.2, q.2.columnName, .notNull⟩ ∈
      (Postgres.migration isFloat pre src dest drop).2 := by
  rw [← lowerThan_before] at hv
  rw [pg_warnings_exact hsrc hdest]
  refine List.mem_flatMap.2 ⟨p, hp, List.mem_append_right _ (List.mem_flatMap.2 ⟨q, hq,
    List.mem_map.2 ⟨.notNull, List.mem_append_right _ ?_, rfl⟩⟩)⟩
  have hd : columnsAreDifferent .postgres src.defaultCollation q.1 q.2 = true := by
    unfold columnsAreDifferent
    simp [h1, h2, hk]
  rw [if_pos hd]
  unfold Postgres.notNullWarnings Postgres.warnIf
  simp [h1, h2, hv]

/-- **C72**: nothing else is reported as setting NOT NULL. -/
theorem pg_not_null_only {src dest : Catalog} (hsrc : Ok src) (hdest : Ok dest) (drop : Bool)
    (isFloat : Str → Bool) (pre : Str) {w : Warning}
    (hw : w ∈ (Postgres.migration isFloat pre src dest drop).2) (hk : w.about = .notNull) :
    Before 12 src.versionNums ∧ ∃ p ∈ commonTables src dest,
      ∃ q ∈ CatalogSpec.commonColumns p.1 p.2, q.1.isNotNull = false ∧ q.2.isNotNull = true ∧
        w = ⟨warnTable .postgres src.currentSchema p.2, q.2.columnName, .notNull⟩ := by
  rw [pg_warnings_exact hsrc hdest] at hw
  rw [← lowerThan_before]
  obtain ⟨p, hp, hw⟩ := List.mem_flatMap.1 hw
  rcases List.mem_append.1 hw with hw | hw
  · obtain ⟨c, hc, hw⟩ := List.mem_flatMap.1 hw
    unfold Postgres.addWarning at hw
    grind
  · obtain ⟨q, hq, hw⟩ := List.mem_flatMap.1 hw
    obtain ⟨u, hu, rfl⟩ := List.mem_map.1 hw
    have hk : u = .notNull := hk
    subst hk
    clear hw
    rcases List.mem_append.1 hu with hu | hu
    · unfold Postgres.typeWarnings Postgres.warnIf at hu
      grind
    · split at hu
      · unfold Postgres.notNullWarnings Postgres.warnIf at hu
        refine ⟨by grind, p, hp, q, hq, by grind, by grind, rfl⟩
      · cases hu

/-! ## Examples -/

namespace WarningsLocksSample

/-- a catalog with these columns -/
def pets (v : List Int) (cs : List Column) : Catalog :=
  { currentSchema := b!"app"
    versionNums := v
    schemas := [{ schemaName := b!"app"
                  tables := [{ tableSchema := b!"app", tableName := b!"pet", columns := cs }] }] }

/-- a column -/
def name (notNull : Bool) : Column :=
  { columnName := b!"name", columnType := b!"TEXT", isNotNull := notNull }
/-- a column with a default -/
def legs : Column := { columnName := b!"legs", columnType := b!"INT", columnDefault := b!"4" }

/-- the catalog before the migration -/
def src : Catalog := pets [10, 4] [name false]
/-- the catalog after the migration -/
def dest : Catalog := pets [10, 4] [name true, legs]

theorem ok (v : List Int) (cs : List Column) (h : cs = [name false] ∨ cs = [name true, legs]) :
    Ok (pets v cs) :=
  ⟨by simp [pets], fun s hs => by
    simp only [pets, List.mem_singleton] at hs
    subst hs
    refine ⟨by simp, by simp, by simp, fun t ht => ?_⟩
    simp only [List.mem_singleton] at ht
    subst ht
    rcases h with rfl | rfl
    · exact ⟨by simp, by simp, by simp, by simp⟩
    · exact ⟨by decide +kernel, by simp, by simp, by simp⟩⟩

/-- the tables -/
def pair : Table × Table :=
  ((liveTables src).headD {}, (liveTables dest).headD {})

theorem pair_mem : pair ∈ commonTables src dest := by
  show _ ∈ [pair]
  simp

example : ⟨b!"pet", b!"legs", .addDefault⟩ ∈
    (Postgres.migration (fun _ => false) b!"1" src dest false).2 :=
  ((pg_add_warned (ok _ _ (.inl rfl)) (ok _ _ (.inr rfl)) false (fun _ => false) b!"1"
    ⟨b!"pet", b!"legs", .addDefault⟩).2 ⟨⟨10, [4], rfl, by decide⟩, pair, pair_mem, legs,
      by decide +kernel, by decide +kernel, .inl ⟨by decide, by decide +kernel⟩⟩).1

example : ⟨b!"pet", b!"name", .notNull⟩ ∈
    (Postgres.migration (fun _ => false) b!"1" src dest false).2 :=
  pg_not_null_warned (ok _ _ (.inl rfl)) (ok _ _ (.inr rfl)) false (fun _ => false) b!"1"
    ⟨10, [4], rfl, by decide⟩ pair_mem (q := (name false, name true))
    (by show _ ∈ [(name false, name true)]; simp) rfl rfl rfl

example : ¬ ∃ w ∈ (Postgres.migration (fun _ => false) b!"1" (pets [12, 1] [name false]) dest
    false).2, w.about = .notNull := by
  rintro ⟨w, hw, hk⟩
  obtain ⟨⟨v, vs, e, h⟩, -⟩ := pg_not_null_only (ok [12, 1] [name false] (.inl rfl))
    (ok _ _ (.inr rfl)) false (fun _ => false) b!"1" hw hk
  cases e
  omega

end WarningsLocksSample

end Sqddl
