import Verif.Props.ScriptObjectsOthers
import Verif.Props.ScriptRowsSample

/-!
# C113: types, views and triggers that are reported, and some that are lost or reported wrongly
-/

namespace Sqddl.Scripts
open OwnSpec ObjectSpec ColumnSpec

/-- everything is asked for -/
def everyObject : ObjFilter := {}

/-! ## Postgres -/

/-- the catalog tables; no database has the name of one -/
def sampleCatalogs (s : Str) : Option Nat :=
  if s = b!"pg_type" then some 1247 else if s = b!"pg_class" then some 1259
  else if s = b!"pg_trigger" then some 2620 else none

/-- an enum, a domain, a table with a trigger and two views -/
def samplePgObjects : PgObjects :=
  { namespaces := [⟨1, b!"public"⟩]
    classes := [⟨10, 1, b!"film", 'r'⟩, ⟨11, 1, b!"titles", 'v'⟩, ⟨12, 1, b!"totals", 'm'⟩]
    types := [⟨25, 1, b!"text", 'b', 0, -1, 100, false, none⟩, ⟨500, 1, b!"rating", 'e', 0, -1, 0, false, none⟩,
      ⟨501, 1, b!"code", 'd', 25, -1, 200, true, some b!"'x'::text"⟩]
    enums := [⟨500, 3, b!"R"⟩, ⟨500, 1, b!"G"⟩, ⟨500, 2, b!"PG"⟩]
    checks := [⟨601, b!"code_short", 501⟩, ⟨600, b!"code_full", 501⟩]
    collations := [⟨100, b!"default"⟩, ⟨200, b!"C"⟩]
    cols := [⟨11, 2, b!"rating", 500, -1, ' ', ' ', false, false, 0⟩, ⟨11, 1, b!"title", 25, -1, ' ', ' ', false, false, 100⟩,
      ⟨12, 1, b!"n", 25, -1, ' ', ' ', false, false, 100⟩]
    triggers := [⟨700, 10, b!"stamp", false⟩, ⟨701, 10, b!"RI_ConstraintTrigger", true⟩, ⟨702, 11, b!"insert_title", false⟩]
    descriptions := [⟨700, 2620, 0, b!"sets the time"⟩]
    catalogs := sampleCatalogs
    database := b!"shop"
    formatType := fun t _ => if t = 25 then b!"text" else b!"rating"
    checkdef := fun n => if n = 600 then b!"CHECK (VALUE <> '')" else b!"CHECK (length(VALUE) < 9)"
    viewdef := fun n => if n = 11 then b!"SELECT title, rating FROM film" else b!"SELECT title AS n FROM film"
    triggerdef := fun n => if n = 700 then b!"CREATE TRIGGER stamp" else b!"CREATE TRIGGER insert_title"
    odd := fun _ => none }

/-- the schema is a plain one -/
theorem public_plain {l : List PgNamespace} (h : l = [⟨1, b!"public"⟩]) : ∀ n ∈ l, PlainSchema n.nspname := by
  intro n hn
  rw [h] at hn
  rw [List.mem_singleton.mp hn]
  unfold PlainSchema
  decide

theorem samplePgObjects_valid : PgObjValid samplePgObjects :=
  ⟨by decide, by decide, by decide, by decide, by decide, by decide, by decide, by decide, by decide, by decide,
    by decide, by decide, by decide, by decide⟩

example : OneOf everyObject.schemas everyObject.excludeSchemas ∧ PgObjValid samplePgObjects ∧
    (∀ n ∈ samplePgObjects.namespaces, PlainSchema n.nspname) ∧
    NoComment samplePgObjects (samplePgObjects.enums.map (·.enumtypid)) ∧
    pgEnums everyObject samplePgObjects =
      some [{ enumSchema := b!"public", enumName := b!"rating", enumLabels := [b!"G", b!"PG", b!"R"] }] :=
  ⟨oneOf_none, samplePgObjects_valid, public_plain rfl, by unfold NoComment; decide, by rfl⟩

example : NoComment samplePgObjects (samplePgObjects.types.map (·.oid)) ∧
    (∃ k ∈ samplePgObjects.checks, k.contypid = 501) ∧
    pgDomains everyObject samplePgObjects = some [
      { domainSchema := b!"public", domainName := b!"code", underlyingType := b!"text", collationName := b!"C",
        isNotNull := true, columnDefault := b!"'x'::text", checkNames := [b!"code_full", b!"code_short"],
        checkExprs := [b!"CHECK (VALUE <> '')", b!"CHECK (length(VALUE) < 9)"] }] :=
  ⟨by unfold NoComment; decide, by decide, by rfl⟩

example : NoComment samplePgObjects (samplePgObjects.classes.map (·.oid)) ∧
    (pgViews everyObject samplePgObjects).map (fun x => (x.viewName, x.isMaterialized, x.columns, x.enumColumns)) =
      [(b!"titles", false, [b!"title", b!"rating"], [b!"rating"]), (b!"totals", true, [b!"n"], [])] :=
  ⟨by unfold NoComment; decide, by rfl⟩

/-- the names of the sample need no quotes -/
theorem samplePgObjects_names : PlainName b!"public" ∧ PlainName b!"titles" ∧ PlainName b!"totals" := by
  refine ⟨⟨⟨'p', b!"ublic", rfl, .inl (by decide)⟩, by decide⟩, ⟨⟨'t', b!"itles", rfl, .inl (by decide)⟩, by decide⟩,
    ⟨⟨'t', b!"otals", rfl, .inl (by decide)⟩, by decide⟩⟩

example : ∀ t ∈ samplePgObjects.classes, ∀ n ∈ samplePgObjects.namespaces, n.oid = t.relnamespace →
    t.relkind = 'v' ∨ t.relkind = 'm' → PlainName n.nspname ∧ PlainName t.relname := by
  intro t ht n hn _ hk
  rw [List.mem_singleton.mp hn]
  simp only [samplePgObjects, List.mem_cons, List.not_mem_nil, or_false] at ht
  rcases ht with rfl | rfl | rfl
  · exact absurd hk (by decide)
  · exact ⟨samplePgObjects_names.1, samplePgObjects_names.2.1⟩
  · exact ⟨samplePgObjects_names.1, samplePgObjects_names.2.2⟩

example : (∀ d ∈ samplePgObjects.descriptions, ∀ g ∈ samplePgObjects.triggers, d.objoid = g.oid →
      some d.classoid = samplePgObjects.catalogs b!"pg_trigger" ∧ d.objsubid = 0) ∧
    (pgTriggers everyObject samplePgObjects).map (fun x => (x.tableName, x.triggerName, x.isViewTrigger, x.comment)) =
      [(b!"film", b!"stamp", false, b!"sets the time"), (b!"titles", b!"insert_title", true, [])] :=
  ⟨by decide, by rfl⟩

/-- C113: with a list of enums or of domains the query is refused, whatever the database has. -/
theorem pg_type_list_refuted (c : PgObjects) (f : ObjFilter) :
    (f.enums ≠ [] ∨ f.excludeEnums ≠ [] → pgEnums f c = none) ∧
    (f.domains ≠ [] ∨ f.excludeDomains ≠ [] → pgDomains f c = none) := by
  refine ⟨fun h => ?_, fun h => ?_⟩
  · unfold pgEnums; rw [if_pos h]
  · unfold pgDomains; rw [if_pos h]

/-- the sample with other comments -/
def commentedObjects (l : List PgDescription) : PgObjects := { samplePgObjects with descriptions := l }

/-- C113: the comments of enums, domains and views are lost: they are looked up with the name of the
database instead of that of the catalog table. -/
theorem pg_object_comments_refuted : ∃ c : PgObjects, PgObjValid c ∧
    CommentOf c b!"pg_type" 500 b!"age" ∧ CommentOf c b!"pg_type" 501 b!"short" ∧ CommentOf c b!"pg_class" 11 b!"all" ∧
    (pgEnums everyObject c).map (·.map fun x => (x.enumName, x.comment)) = some [(b!"rating", [])] ∧
    (pgDomains everyObject c).map (·.map fun x => (x.domainName, x.comment)) = some [(b!"code", [])] ∧
    (pgViews everyObject c).map (fun x => (x.viewName, x.comment)) = [(b!"titles", []), (b!"totals", [])] :=
  ⟨commentedObjects [⟨500, 1247, 0, b!"age"⟩, ⟨501, 1247, 0, b!"short"⟩, ⟨11, 1259, 0, b!"all"⟩],
    ⟨by decide, by decide, by decide, by decide, by decide, by decide, by decide, by decide, by decide, by decide,
      by decide, by decide, by decide, by decide⟩,
    .inl ⟨⟨500, 1247, 0, b!"age"⟩, .head _, rfl, rfl, rfl, rfl⟩,
    .inl ⟨⟨501, 1247, 0, b!"short"⟩, .tail _ (.head _), rfl, rfl, rfl, rfl⟩,
    .inl ⟨⟨11, 1259, 0, b!"all"⟩, .tail _ (.tail _ (.head _)), rfl, rfl, rfl, rfl⟩, by rfl, by rfl, by rfl⟩

/-- C113: a domain without checks is reported with a check that has no name and no expression. -/
theorem pg_domain_unchecked_refuted : ∃ c : PgObjects, PgObjValid c ∧ c.checks = [] ∧
    (pgDomains everyObject c).map (·.map fun x => (x.domainName, x.checkNames, x.checkExprs)) =
      some [(b!"code", [[]], [[]])] :=
  ⟨{ samplePgObjects with checks := [] },
    ⟨by decide, by decide, by decide, by decide, by decide, by decide, by decide, by decide, by decide, by decide,
      by decide, by decide, by decide, by decide⟩, rfl, by rfl⟩

/-- C113: a view whose name has a capital is lost, or is reported with the definition and the columns of
the view whose name has a small letter there. -/
theorem pg_capital_view_refuted :
    (∃ c : PgObjects, PgObjValid c ∧ (∃ t ∈ c.classes, t.relkind = 'v' ∧ t.relname = b!"Titles" ∧
      ∃ a, ViewColumn c t a) ∧ pgViews everyObject c = []) ∧
    (∃ c : PgObjects, PgObjValid c ∧ (∃ t ∈ c.classes, t.relkind = 'v' ∧ t.relname = b!"Titles" ∧
      c.viewdef t.oid = b!"SELECT title AS n FROM film") ∧
      (pgViews everyObject c).map (fun x => (x.viewName, x.sql)) =
        [(b!"titles", b!"SELECT title, rating FROM film"), (b!"Titles", b!"SELECT title, rating FROM film")]) :=
  ⟨⟨{ samplePgObjects with classes := [⟨11, 1, b!"Titles", 'v'⟩] },
    ⟨by decide, by decide, by decide, by decide, by decide, by decide, by decide, by decide, by decide, by decide,
      by decide, by decide, by decide, by decide⟩,
    ⟨_, .head _, rfl, rfl, ⟨11, 1, b!"title", 25, -1, ' ', ' ', false, false, 100⟩, .tail _ (.head _), rfl,
      by decide, rfl⟩, by rfl⟩,
   ⟨{ samplePgObjects with classes := [⟨11, 1, b!"titles", 'v'⟩, ⟨12, 1, b!"Titles", 'v'⟩] },
    ⟨by decide, by decide, by decide, by decide, by decide, by decide, by decide, by decide, by decide, by decide,
      by decide, by decide, by decide, by decide⟩, ⟨_, .tail _ (.head _), rfl, rfl, rfl⟩, by rfl⟩⟩

/-- C113: a trigger is reported twice if another object with its number has a comment. -/
theorem pg_trigger_twice_refuted : ∃ c : PgObjects, PgObjValid c ∧
    (pgTriggers everyObject c).map (fun x => (x.tableName, x.triggerName, x.comment)) =
      [(b!"film", b!"stamp", b!"sets the time"), (b!"film", b!"stamp", b!"of a function"),
        (b!"titles", b!"insert_title", [])] :=
  ⟨commentedObjects [⟨700, 2620, 0, b!"sets the time"⟩, ⟨700, 1255, 0, b!"of a function"⟩],
    ⟨by decide, by decide, by decide, by decide, by decide, by decide, by decide, by decide, by decide, by decide,
      by decide, by decide, by decide, by decide⟩, by rfl⟩

/-- C113: with a list of tables, views are still reported but their triggers are lost. -/
theorem pg_view_trigger_refuted : ∃ (f : ObjFilter) (c : PgObjects), PgObjValid c ∧
    (∃ g ∈ c.triggers, ∃ t ∈ c.classes, g.tgrelid = t.oid ∧ t.relname = b!"titles" ∧ g.tgname = b!"insert_title") ∧
    (pgViews f c).map (·.viewName) = [b!"titles", b!"totals"] ∧
    (pgTriggers f c).map (fun x => (x.tableName, x.triggerName)) = [(b!"film", b!"stamp")] :=
  ⟨{ tables := [b!"film"] }, samplePgObjects, samplePgObjects_valid,
    ⟨_, .tail _ (.tail _ (.head _)), ⟨11, 1, b!"titles", 'v'⟩, .tail _ (.head _), rfl, rfl, rfl⟩, by rfl, by rfl⟩

/-! ## MySQL -/

/-- a column -/
def plainMyColumn (name type : Str) : MyColumn :=
  ⟨name, type, none, none, none, false, false, none, none, none, none, false, false, []⟩

/-- a table and a view -/
def sampleMyObjects : List MyTab :=
  [⟨b!"shop", b!"film", b!"BASE TABLE", [plainMyColumn b!"id" b!"int"]⟩,
    ⟨b!"shop", b!"titles", b!"VIEW", [plainMyColumn b!"title" b!"text", plainMyColumn b!"n" b!"bigint"]⟩]

example : MyColShows sampleMyObjects (sampleMyObjects.map fun t => (t.schema, t.name, t.type))
      (sampleMyObjects.flatMap fun t => (t.columns.zipIdx 1).map (myColRow t)) ∧
    (sampleMyObjects.map fun t => (t.schema, t.name)).Nodup ∧ (∀ t ∈ sampleMyObjects, t.columns ≠ []) ∧
    myViews everyObject (myViewRows (fun _ => b!"select 1") sampleMyObjects)
      (sampleMyObjects.flatMap fun t => (t.columns.zipIdx 1).map (myColRow t)) =
      [{ viewSchema := b!"shop", viewName := b!"titles", sql := b!"select 1", columns := [b!"title", b!"n"],
         columnTypes := [b!"text", b!"bigint"] }] := by
  refine ⟨⟨.refl _, .refl _⟩, by decide, ?_, by rfl⟩
  intro t ht
  simp only [sampleMyObjects, List.mem_cons, List.not_mem_nil, or_false] at ht
  rcases ht with rfl | rfl <;> exact fun e => by cases e

/-! ## SQL Server -/

/-- a table and a view with a trigger each -/
def sampleMsObjects (module : Option Str) : List MsTrigObject :=
  [⟨1, b!"dbo", b!"film", b!"U", 0, none⟩, ⟨2, b!"dbo", b!"titles", b!"V", 0, some (some b!"CREATE VIEW")⟩,
    ⟨3, b!"dbo", b!"stamp", b!"TR", 1, some module⟩, ⟨4, b!"dbo", b!"insert_title", b!"TR", 2, some (some b!"CREATE")⟩]

example : (∀ t ∈ sampleMsObjects (some b!"x"), False ↔ Longer id b!"spt" t.name ∨ Longer id b!"msreplication" t.name) ∧
    ((sampleMsObjects (some b!"x")).map (·.id)).Nodup ∧
    ((sampleMsObjects (some b!"x")).map fun g => (g.schema, g.name)).Nodup ∧
    (∀ g ∈ sampleMsObjects (some b!"x"), g.type = b!"TR" → ∃ d, g.module = some (some d)) ∧
    (∀ g ∈ sampleMsObjects (some b!"x"), ∀ t ∈ sampleMsObjects (some b!"x"), g.type = b!"TR" → t.id = g.parent →
      g.schema = t.schema) ∧
    (msTriggers id everyObject (sampleMsObjects (some b!"x"))).map (·.map fun x =>
      (x.tableName, x.triggerName, x.isViewTrigger, x.sql)) =
      some [(b!"film", b!"stamp", false, b!"x"), (b!"titles", b!"insert_title", true, b!"CREATE")] := by
  refine ⟨?_, by decide, by decide, ?_, by unfold sampleMsObjects; decide, by rfl⟩
  · unfold Longer sampleMsObjects
    decide
  · intro g hg
    simp only [sampleMsObjects, List.mem_cons, List.not_mem_nil, or_false] at hg
    rcases hg with rfl | rfl | rfl | rfl
    · exact fun e => absurd e (by decide)
    · exact fun e => absurd e (by decide)
    · exact fun _ => ⟨_, rfl⟩
    · exact fun _ => ⟨_, rfl⟩

/-- C113: one encrypted trigger and no trigger at all can be read. -/
theorem sqlserver_encrypted_refuted : ∃ objects : List MsTrigObject,
    (∃ g ∈ objects, g.type = b!"TR" ∧ g.module = some (some b!"CREATE")) ∧ msTriggers id everyObject objects = none :=
  ⟨sampleMsObjects none, ⟨_, .tail _ (.tail _ (.tail _ (.head _))), rfl, rfl⟩, by rfl⟩

/-- C113: with a list of tables and a list of views no trigger is found, neither of the table nor of the
view. -/
theorem sqlserver_both_lists_refuted : ∃ (f : ObjFilter) (objects : List MsTrigObject),
    (∃ g ∈ objects, ∃ t ∈ objects, g.type = b!"TR" ∧ g.parent = t.id ∧ t.type = b!"U" ∧ t.name ∈ f.tables) ∧
    (∃ g ∈ objects, ∃ t ∈ objects, g.type = b!"TR" ∧ g.parent = t.id ∧ t.type = b!"V" ∧ t.name ∈ f.views) ∧
    msTriggers id f objects = some [] :=
  ⟨{ tables := [b!"film"], views := [b!"titles"] }, sampleMsObjects (some b!"x"),
    ⟨_, .tail _ (.tail _ (.head _)), _, .head _, rfl, rfl, rfl, .head _⟩,
    ⟨_, .tail _ (.tail _ (.tail _ (.head _))), _, .tail _ (.head _), rfl, rfl, rfl, .head _⟩, by rfl⟩

end Sqddl.Scripts
