import Verif.Lemmas.DumpDecide
import Verif.Props.DumpTypes
import Verif.Model.IntrospectRows

/-!
# The types of a Postgres dump: samples and refutations (C98)
-/

namespace PgTypes
open Go SqlSpec Sqddl DdlText EngineSpec Sqddl.Render
open DumpSpec (Dumpable Ordered KeysNotNull)

instance (e : Enum) : Decidable (EnumOk e) :=
  decidable_of_iff (PlainName .postgres e.enumName ∧ (∀ l ∈ e.enumLabels, ¬ HasInnerPair '\'' l) ∧
    e.enumLabels.Nodup)
    ⟨fun h => ⟨h.1, h.2.1, h.2.2⟩, fun h => ⟨h.name, h.labels, h.nodup⟩⟩

instance (s : Str) : Decidable (Part s) := by unfold Part; infer_instance

instance (x : Domain) : Decidable (DomainOk x) :=
  decidable_of_iff (PlainName .postgres x.domainName ∧ Part x.underlyingType ∧
    ¬ HasInnerPair '"' x.collationName ∧ (x.columnDefault ≠ [] → Part x.columnDefault) ∧
    (∀ e ∈ x.checkExprs, ExprText .postgres e ∧ e ≠ [] ∧ exprToks .postgres e ≠ []) ∧
    (∀ n ∈ x.checkNames, PlainName .postgres n) ∧ (x.checkNames.filter (· ≠ [])).Nodup)
    ⟨fun h => ⟨h.1, h.2.1, h.2.2.1, h.2.2.2.1, h.2.2.2.2.1, h.2.2.2.2.2.1, h.2.2.2.2.2.2⟩,
     fun h => ⟨h.name, h.type, h.collation, h.default, h.checks, h.checkNames, h.nodup⟩⟩

/-- What comes before an element, with the element. -/
def splits {α : Type} : List α → List α → List (List α × α)
  | _, [] => []
  | a, x :: r => (a, x) :: splits (a ++ [x]) r

theorem mem_splits {α : Type} (a p q : List α) (x : α) : (a ++ p, x) ∈ splits a (p ++ x :: q) := by
  induction p generalizing a with
  | nil => simp [splits]
  | cons y p ih =>
    have := ih (a ++ [y])
    rw [List.append_assoc] at this
    exact List.mem_cons_of_mem _ this

/-- The conditions, with conditions on the order that can be computed. -/
theorem typesOk_of {uses : List Tok → List Key} {c : Catalog}
    (h1 : ∀ e ∈ c.extensions, PlainName .postgres e) (h2 : ∀ s ∈ c.schemas, ∀ e ∈ s.enums, EnumOk e)
    (h3 : ∀ s ∈ c.schemas, ∀ x ∈ s.domains, DomainOk x)
    (h4 : ((c.schemas.flatMap fun s => (enumsIn s).map (·.1) ++
      (domsIn c.defaultCollation s).map (·.1)) ++
      (DumpSpec.tables c).map fun t => (t.tableSchema, t.tableName)).Nodup)
    (h5 : ∀ p ∈ splits [] c.schemas, ∀ q ∈ splits [] p.2.domains,
      ∀ ts ∈ (domOf c.defaultCollation q.2).texts, ∀ k ∈ uses ts,
        k ∈ ((p.1 ++ [p.2]).flatMap fun s => (enumsIn s).map (·.1)) ∨
        k ∈ (p.1.flatMap fun s => (domsIn c.defaultCollation s).map (·.1)) ∨
        k ∈ q.1.map fun y => (p.2.schemaName, y.domainName))
    (h6 : ∀ t ∈ DumpSpec.tables c, ∀ x ∈ t.columns,
      ∀ ts ∈ colTexts (colOf .postgres c.defaultCollation false x), ∀ k ∈ uses ts,
        k ∈ c.schemas.flatMap fun s => (enumsIn s).map (·.1) ++ (domsIn c.defaultCollation s).map (·.1)) :
    TypesOk uses c where
  extensions := h1
  enums := h2
  domains := h3
  names := h4
  order := by
    intro a s b e p x q ep ts hts k hk
    rcases h5 (a, s) (by rw [e]; exact mem_splits [] a b s) (p, x)
      (by rw [ep]; exact mem_splits [] p q x) ts hts k hk with h | h | h
    · exact .inl h
    · exact .inr (.inl h)
    · obtain ⟨y, hy, rfl⟩ := List.mem_map.1 h
      exact .inr (.inr ⟨y, hy, rfl⟩)
  columns := by
    intro t ht x hx ts hts k hk
    obtain ⟨s, hs, h⟩ := List.mem_flatMap.1 (h6 t ht x hx ts hts k hk)
    exact ⟨s, hs, List.mem_append.1 h⟩

/-! ## Sample -/

/-- The names with a schema in a text. -/
def named : List Tok → List Key
  | .word a :: .punct '.' :: .word b :: r => (toLower a, toLower b) :: named r
  | _ :: r => named r
  | [] => []

/-- A domain over an enum of another schema, and a domain over it. -/
def shop : Catalog :=
  { dialect := b!"postgres", currentSchema := b!"shop", defaultCollation := b!"C"
    extensions := [b!"uuid-ossp", b!"citext"]
    schemas := [
      { schemaName := b!"base"
        enums := [{ enumSchema := b!"base", enumName := b!"mood"
                    enumLabels := [b!"so-so", b!"can't say", b!""] }] },
      { schemaName := b!"shop"
        domains := [
          { domainSchema := b!"shop", domainName := b!"customer mood", underlyingType := b!"base.mood"
            columnDefault := b!"'so-so'::base.mood", isNotNull := true
            checkNames := [b!"known", b!""]
            checkExprs := [b!"(VALUE <> ''::base.mood)", b!"(VALUE IS NOT NULL)"] },
          { domainSchema := b!"shop", domainName := b!"year", underlyingType := b!"integer"
            collationName := b!"de_DE" }]
        tables := [
          { tableSchema := b!"shop", tableName := b!"customer"
            columns := [
              { tableSchema := b!"shop", tableName := b!"customer", columnName := b!"id"
                columnType := b!"INT", isNotNull := true },
              { tableSchema := b!"shop", tableName := b!"customer", columnName := b!"feels"
                columnType := b!"base.mood", isEnum := true },
              { tableSchema := b!"shop", tableName := b!"customer", columnName := b!"since"
                columnType := b!"integer", domainName := b!"shop.year" }]
            constraints := [
              { tableSchema := b!"shop", tableName := b!"customer", constraintName := b!"customer_pkey"
                constraintType := b!"PRIMARY KEY", columns := [b!"id"] }] }] }] }

theorem shop_dumpable : Dumpable .postgres (keywords .postgres) (PlainName .postgres) shop := by
  decide +kernel

set_option synthInstance.maxSize 2000 in
theorem shop_types : TypesOk named shop := by
  refine typesOk_of ?_ ?_ ?_ ?_ ?_ ?_ <;> decide +kernel

example (E X : Str → Bool) : ∃ s1 s2 s3,
    runScript (keywords .postgres) b!"shop" (Dump.dumpSchema .postgres shop) = some s1 ∧
    runScript (keywords .postgres) b!"shop" (Dump.dumpIndexes .postgres shop) = some s2 ∧
    runScript (keywords .postgres) b!"shop" (Dump.dumpConstraints .postgres shop) = some s3 ∧
    Runs named (empty E X) (s1 ++ s2 ++ s3) (withMore E X (stateOf (keywords .postgres) shop)) :=
  pg_dump_load_types_partial shop_dumpable shop_types (DumpSpec.ordered_of (by decide +kernel))
    (PgSpec.consistent_of (DumpSpec.listed _ _ _) (by decide +kernel))
    (DumpSpec.keysNotNull_of (DumpSpec.listed _ _ _) (by decide +kernel)) (by decide +kernel) E X

/-! ## Refutations -/

/-- A statement that is refused. -/
theorem not_runs {uses : List Tok → List Key} {st st' : State} {a b : List Stmt} {s : Stmt}
    (h : ¬ Accepts uses (a.foldl effect st) s) : ¬ Runs uses st (a ++ s :: b) st' := by
  induction a generalizing st with
  | nil => exact fun hr => h hr.1
  | cons x a ih => exact fun hr => ih h hr.2

/-- A database that Postgres can have: everything that C98 asks for, but not how types are named. -/
def Possible (c : Catalog) : Prop :=
  Dumpable .postgres (keywords .postgres) (PlainName .postgres) c ∧
  (∀ e ∈ c.extensions, PlainName .postgres e) ∧ (∀ s ∈ c.schemas, ∀ e ∈ s.enums, EnumOk e) ∧
  (∀ s ∈ c.schemas, ∀ x ∈ s.domains, DomainOk x) ∧
  ((c.schemas.flatMap fun s => (enumsIn s).map (·.1) ++ (domsIn c.defaultCollation s).map (·.1)) ++
    (DumpSpec.tables c).map fun t => (t.tableSchema, t.tableName)).Nodup

set_option synthInstance.maxSize 2000 in
instance (c : Catalog) : Decidable (Possible c) := by unfold Possible; infer_instance

/-- The dump of a database is loaded into an empty one. -/
def Loads (uses : List Tok → List Key) (c : Catalog) : Prop :=
  ∃ E X s1 s2 s3 st, runScript (keywords .postgres) c.currentSchema (Dump.dumpSchema .postgres c) = some s1 ∧
    runScript (keywords .postgres) c.currentSchema (Dump.dumpIndexes .postgres c) = some s2 ∧
    runScript (keywords .postgres) c.currentSchema (Dump.dumpConstraints .postgres c) = some s3 ∧
    Runs uses (empty E X) (s1 ++ s2 ++ s3) st

/-- A column. -/
def column (n ty : Str) : Column :=
  { tableSchema := b!"shop", tableName := b!"t", columnName := n, columnType := ty }

/-- A database with a table. -/
def withTable (cols : List Column) (enums : List Enum) (doms : List Domain) : Catalog :=
  { dialect := b!"postgres", currentSchema := b!"shop", defaultCollation := b!"C"
    schemas := [{ schemaName := b!"shop", enums := enums, domains := doms
                  tables := [{ tableSchema := b!"shop", tableName := b!"t", columns := cols }] }] }

/-- A domain over one with a later name. -/
def ages : Catalog := withTable [column b!"id" b!"int"] [] [
  { domainSchema := b!"shop", domainName := b!"adult", underlyingType := b!"age"
    checkNames := [b!"adult_check"], checkExprs := [b!"(VALUE >= 18)"] },
  { domainSchema := b!"shop", domainName := b!"age", underlyingType := b!"integer" }]

/-- C98 fails: domains are dumped in the order of their names, also if a domain is over one that comes
later. -/
theorem pg_dump_domain_order_refuted : ∃ c : Catalog, Possible c ∧
    (∃ s, c.schemas = [s] ∧ s.domains.map (·.domainName) = [b!"adult", b!"age"]) ∧
    ∀ uses : List Tok → List Key, (b!"shop", b!"age") ∈ uses [.word b!"age"] → ¬ Loads uses c := by
  refine ⟨ages, by decide +kernel, ⟨_, rfl, rfl⟩, ?_⟩
  rintro uses hu ⟨E, X, s1, s2, s3, st, h1, -, -, hr⟩
  have e1 : runScript (keywords .postgres) b!"shop" (Dump.dumpSchema .postgres ages) = some
      [.other (.base (.createSchema b!"shop")),
       .domain (some b!"shop", b!"adult") (domOf b!"C" (ages.schemas[0].domains[0])),
       .domain (some b!"shop", b!"age") (domOf b!"C" (ages.schemas[0].domains[1])),
       .other (.base (.createTable (some b!"shop", b!"t")
         [.col (colOf .postgres b!"C" false (ages.schemas[0].tables[0].columns[0]))]))] := by
    decide +kernel
  have := Option.some.inj (e1.symm.trans h1)
  subst this
  refine not_runs (a := [_]) ?_ hr
  rintro ⟨-, -, h, -⟩
  rcases h [.word b!"age"] (by decide +kernel) _ hu with h | h <;> cases h

/-- The row for `CREATE DOMAIN age AS integer`: /repo/ddl/introspection_scripts/postgres_domains.sql
joins the constraints from the left and turns what is missing into an empty text, so that there is one
constraint without a name and without a text. -/
def ageRow : Domain :=
  { domainSchema := b!"shop", domainName := b!"age", underlyingType := b!"integer"
    checkNames := [b!""], checkExprs := [b!""] }

/-- C98 fails: the dump of a database that has a domain without a constraint is not SQL. -/
theorem pg_dump_domain_without_check_refuted :
    let c := withTable [column b!"id" b!"int"] [] [Introspect.scanDomain ageRow]
    Dumpable .postgres (keywords .postgres) (PlainName .postgres) c ∧
    Dump.dumpSchema .postgres c = b!"CREATE SCHEMA IF NOT EXISTS shop;

CREATE DOMAIN age AS integer CHECK ;

CREATE TABLE t (
    id INT
);
" ∧
    ∀ uses, ¬ Loads uses c := by
  refine ⟨by decide +kernel, by decide +kernel, ?_⟩
  rintro uses ⟨E, X, s1, s2, s3, st, h1, -⟩
  rw [show runScript (keywords .postgres) _ _ = none by decide +kernel] at h1
  cases h1

/-- The row of a column of type `"Mood"`, which is what `format_type` writes. -/
def moodRow : Column := { column b!"feels" b!"\"Mood\"" with isEnum := true }

/-- A database with an enum that has an upper case letter in its name. -/
def moods : Catalog :=
  withTable ((Introspect.scanColumn (fun _ => false) .postgres moodRow).toList)
    [{ enumSchema := b!"shop", enumName := b!"Mood", enumLabels := [b!"good", b!"bad"] }] []

/-- C98 fails: the type of a column that is an enum is turned into lower case when it is read, also if it
is a quoted name. -/
theorem pg_dump_enum_case_refuted : Possible moods ∧
    ∀ uses : List Tok → List Key, (b!"shop", b!"mood") ∈ uses [.quoted b!"mood"] → ¬ Loads uses moods := by
  refine ⟨by decide +kernel, ?_⟩
  rintro uses hu ⟨E, X, s1, s2, s3, st, h1, -, -, hr⟩
  have e1 : runScript (keywords .postgres) b!"shop" (Dump.dumpSchema .postgres moods) = some
      [.other (.base (.createSchema b!"shop")), .enum (some b!"shop", b!"Mood") [b!"good", b!"bad"],
       .other (.base (.createTable (some b!"shop", b!"t")
         [.col (colOf .postgres b!"C" false { moodRow with columnType := b!"\"mood\"" })]))] := by
    decide +kernel
  have := Option.some.inj (e1.symm.trans h1)
  subst this
  refine not_runs (a := [_, _]) ?_ hr
  rintro ⟨-, -, h⟩
  rcases h [.quoted b!"mood"] (by decide +kernel) _ hu with h | h <;> cases h

/-- The row of a column of the domain `"Year"`: /repo/ddl/introspection_scripts/postgres_columns.sql tells
`typname`. -/
def yearRow : Column := { column b!"since" b!"integer" with domainName := b!"Year" }

/-- A database with a domain that has an upper case letter in its name. -/
def years : Catalog :=
  withTable ((Introspect.scanColumn (fun _ => false) .postgres yearRow).toList) []
    [{ domainSchema := b!"shop", domainName := b!"Year", underlyingType := b!"integer" }]

/-- C98 fails: the domain of a column is written without quotes. -/
theorem pg_dump_domain_case_refuted : Possible years ∧
    ∀ uses : List Tok → List Key, (b!"shop", b!"year") ∈ uses [.word b!"year"] → ¬ Loads uses years := by
  refine ⟨by decide +kernel, ?_⟩
  rintro uses hu ⟨E, X, s1, s2, s3, st, h1, -, -, hr⟩
  have e1 : runScript (keywords .postgres) b!"shop" (Dump.dumpSchema .postgres years) = some
      [.other (.base (.createSchema b!"shop")),
       .domain (some b!"shop", b!"Year") (domOf b!"C" (years.schemas[0].domains[0])),
       .other (.base (.createTable (some b!"shop", b!"t") [.col (colOf .postgres b!"C" false yearRow)]))] := by
    decide +kernel
  have := Option.some.inj (e1.symm.trans h1)
  subst this
  refine not_runs (a := [_, _]) ?_ hr
  rintro ⟨-, -, h⟩
  rcases h [.word b!"year"] (by decide +kernel) _ hu with h | h <;> cases h

/-- C98 fails: two quotes in a label become one. -/
theorem pg_dump_enum_label_refuted : ∃ e : Enum, PlainName .postgres e.enumName ∧
    e.enumLabels = [b!"a''b"] ∧
    runScript (keywords .postgres) b!"shop" (Dump.createEnum .postgres b!"shop" b!"shop" e) =
      some [.enum (some b!"shop", e.enumName) [b!"a'b"]] :=
  ⟨{ enumName := b!"mood", enumLabels := [b!"a''b"] }, by decide +kernel, rfl, by decide +kernel⟩

end PgTypes
