import Verif.Props.SqliteConvergesSample
import Verif.Props.Wipe

/-!
# The triggers of a SQLite table that is rebuilt (C70)

DROP TABLE drops the triggers of a table.
-/

namespace LiteText
open SqlSpec Sqddl

/-- In the text, `b` comes after `a`. -/
def After (a b text : Str) : Prop := ∃ u v w, text = u ++ a ++ v ++ b ++ w

/-- The triggers that a rebuilt table has to have: those of the destination, or those of the source if
the destination does not say anything about triggers. -/
def TriggerOf (s t : Table) (g : Trigger) : Prop := g ∈ t.triggers ∨ t.triggers = [] ∧ g ∈ s.triggers

end LiteText

namespace Sqddl.Sqlite
open Go SqlSpec CatalogSpec Sqddl.Render Sqddl.Files LiteText
open Sqddl.Wipe (buffer addStmt buffer_fold)

/-- The buffer goes on with the statements. -/
theorem fold_prefix (b : Str) (ss : List Str) : ∃ w, ss.foldl addStmt b = b ++ w := by
  induction ss generalizing b with
  | nil => exact ⟨[], by simp⟩
  | cons s ss ih =>
    obtain ⟨w, h⟩ := ih (addStmt b s)
    rw [List.foldl_cons, h]
    unfold addStmt
    split
    · exact ⟨b!"\n" ++ s ++ w, by simp⟩
    · exact ⟨s ++ w, by simp⟩

/-- Two statements of a buffer. -/
theorem buffer_after (xs ys zs : List Str) (a b s : Str) (h : ∃ u, s = u ++ a) (hs : s ≠ []) :
    After a (b!"\n" ++ b) (buffer (xs ++ s :: ys ++ b :: zs)) := by
  obtain ⟨u, rfl⟩ := h
  unfold buffer
  rw [List.foldl_append, List.foldl_append, List.foldl_cons, List.foldl_cons]
  generalize xs.foldl addStmt [] = x
  obtain ⟨p, hp⟩ : ∃ p, addStmt x (u ++ a) = p ++ a := by
    unfold addStmt
    split
    · exact ⟨x ++ b!"\n" ++ u, by simp⟩
    · exact ⟨x ++ u, by simp⟩
  have hne : p ++ a ≠ [] := by
    rw [← hp]
    unfold addStmt
    intro e
    exact hs (List.append_eq_nil_iff.1 e).2
  rw [hp, buffer_fold _ _ hne]
  generalize (ys.flatMap fun s => b!"\n" ++ s) = v
  have hpos : (p ++ a ++ v).length > 0 :=
    List.length_pos_iff.2 fun e => hne (List.append_eq_nil_iff.1 e).1
  obtain ⟨w, hw⟩ := fold_prefix (addStmt (p ++ a ++ v) b) zs
  rw [hw]
  unfold addStmt
  rw [if_pos hpos]
  exact ⟨p, v, w, by simp⟩

/-- A table that is rebuilt, in the text of the migration. -/
theorem text_triggers {evs : List Ev} {text : Str} (h : sqlText evs = some text) {a : AlterTable}
    (ha : a ∈ evs.filterMap Ev.alter?) (hc : copies a = some true) {g : Trigger}
    (hg : TriggerOf a.srcTable a.destTable g) :
    After (rename a.destTable.tableName) (b!"\n" ++ (g.sql ++ b!"\n")) text := by
  obtain ⟨copy, -, rfl⟩ := Option.map_eq_some_iff.1 h
  have hm : g.sql ++ b!"\n" ∈ triggerTexts a.srcTable a.destTable := by
    unfold triggerTexts
    refine List.mem_map.2 ⟨g, ?_, rfl⟩
    rcases hg with h | ⟨h1, h2⟩
    · rw [if_neg (List.ne_nil_of_mem h)]; exact h
    · rw [if_pos h1]; exact h2
  obtain ⟨p, q, e⟩ := List.append_of_mem hm
  obtain ⟨x, y, e2⟩ := List.append_of_mem ha
  unfold sqlStmts
  rw [e2, List.flatMap_append, List.flatMap_cons, alterText, if_pos hc, copyTable, e]
  have := buffer_after
    ((if copy then [pragma true] else []) ++
      (evs.filterMap Ev.dropTable?).map (fun t => dropTable t.tableName) ++
      (evs.filterMap Ev.createTable?).flatMap createTableStmts ++ x.flatMap alterText)
    (a.destTable.indexes.map (fun x => createIndex .sqlite [] x false) ++ p)
    (q ++ y.flatMap alterText ++ (if copy then [pragma false] else []))
    (rename a.destTable.tableName) (g.sql ++ b!"\n")
    (createTable .sqlite [] [] (tableNew a.destTable) true ++ insertSelect a.srcTable a.destTable ++
      dropTable a.destTable.tableName ++ rename a.destTable.tableName) ⟨_, rfl⟩
    (by intro e; have := (List.append_eq_nil_iff.1 e).2; unfold rename at this; simp at this)
  simpa [List.append_assoc] using this

variable {src dest : Catalog} {s d : Schema} (hs : SqliteOk src s) (hd : SqliteOk dest d)
include hs hd

/-- **C70**: if the type or NOT NULL of a column changes, so that the table is rebuilt, the migration
creates the triggers of the table again after the new table got its name. -/
theorem sqlite_rebuild_triggers (pre : Str) (files : List Files.File)
    (hf : migration pre src dest true = some files) {p : Table × Table} (hp : p ∈ sqlitePairs s d)
    (hn : ((liveColumns p.1).map fun c => c.columnName).Nodup)
    {x y : Column} (hx : x ∈ liveColumns p.1) (hy : y ∈ liveColumns p.2)
    (hxy : x.columnName = y.columnName)
    (hdiff : x.columnType ≠ y.columnType ∨ x.isNotNull ≠ y.isNotNull)
    {g : Trigger} (hg : TriggerOf p.1 p.2 g) :
    ∃ text, files = [(pre ++ b!".sql", text)] ∧
      After (b!"ALTER TABLE " ++ quoteIdentifier .sqlite (p.2.tableName ++ b!"_new") ++
        b!" RENAME TO " ++ quoteIdentifier .sqlite p.2.tableName ++ b!";\n")
        (b!"\n" ++ (g.sql ++ b!"\n")) text := by
  obtain ⟨text, ht, hfiles⟩ := Option.map_eq_some_iff.1 hf
  have hfull := full_of_pair hs hd hp
  have hcom : (x, y) ∈ CatalogSpec.commonColumns p.1 p.2 := by
    unfold CatalogSpec.commonColumns
    refine List.mem_filterMap.2 ⟨y, hy, ?_⟩
    cases e : (liveColumns p.1).find? fun s => s.columnName == y.columnName with
    | none =>
      have := List.find?_eq_none.1 e x hx
      simp [hxy] at this
    | some z =>
      have h1 := List.mem_of_find?_eq_some e
      have h2 := List.find?_some e
      simp only [beq_iff_eq] at h2
      have := nodup_inj hn h1 hx (by rw [h2, hxy])
      subst this
      rfl
  have hd' : columnsAreDifferent .sqlite [] x y = true := by
    unfold columnsAreDifferent
    rcases hdiff with h | h
    · simp [h]
    · have : (x.isNotNull != y.isNotNull) = true := by simpa using h
      simp [this]
  have hne : (sqliteFullAlter (newCatalogCache (sqliteNameConstraints src))
      (newCatalogCache (sqliteNameConstraints dest)) (nameTable p.1)
      (nameTable p.2)).alterColumns ≠ [] := by
    rw [hfull.alterColumns]
    exact List.ne_nil_of_mem (List.mem_filter.2 ⟨hcom, hd'⟩)
  have hkeep : (sqliteFullAlter (newCatalogCache (sqliteNameConstraints src))
      (newCatalogCache (sqliteNameConstraints dest)) (nameTable p.1)
      (nameTable p.2)).worthKeeping = true := by
    unfold AlterTable.worthKeeping
    simp [hne]
  have htr : ∀ t, (nameTable t).triggers = t.triggers := by
    intro t; unfold nameTable; split <;> rfl
  have := text_triggers ht ((alter_of_pair hs hd _).2 ⟨p, hp, hkeep, rfl⟩)
    (by unfold copies; rw [if_pos hne]) (g := g) (by
      rw [hfull.srcTable, hfull.destTable]
      unfold TriggerOf at hg ⊢
      rw [htr, htr]
      exact hg)
  rw [hfull.destTable, (nameTable_fields p.2).1] at this
  refine ⟨text, ?_, this⟩
  rw [← hfiles, if_neg]
  rintro rfl
  obtain ⟨u, v, w, e⟩ := this
  have := congrArg List.length e
  unfold rename at this
  simp at this

end Sqddl.Sqlite

namespace Sqddl.Sqlite.Samples
open SqlSpec Sqddl LiteText CatalogSpec

/-- A trigger that the source has. -/
def trigger9 : Trigger :=
  { tableName := b!"posts", triggerName := b!"log",
    sql := b!"CREATE TRIGGER log AFTER DELETE ON posts BEGIN DELETE FROM notes; END;" }

def posts9 (nn : Bool) (gs : List Trigger) : Table :=
  { tableName := b!"posts", columns := [idCol b!"posts", col b!"posts" b!"title" b!"TEXT" nn],
    constraints := [pk b!"posts" [b!"id"]], triggers := gs }

/-- `sqlite_rebuild_triggers` on a table that is rebuilt because its title becomes NOT NULL. -/
example : ∃ text, migration b!"01" (cat { tables := [posts9 false [trigger9]] })
      (cat { tables := [posts9 true []] }) true = some [(b!"01.sql", text)] ∧
    After b!"ALTER TABLE posts_new RENAME TO posts;\n" (b!"\n" ++ (trigger9.sql ++ b!"\n")) text := by
  have hm : (migration b!"01" (cat { tables := [posts9 false [trigger9]] })
      (cat { tables := [posts9 true []] }) true).isSome = true := by decide +kernel
  obtain ⟨files, hm⟩ := Option.isSome_iff_exists.1 hm
  obtain ⟨text, rfl, h⟩ := sqlite_rebuild_triggers (s := { tables := [posts9 false [trigger9]] })
    (d := { tables := [posts9 true []] })
    ⟨by decide +kernel, rfl⟩ ⟨by decide +kernel, rfl⟩ b!"01" files hm
    (p := (posts9 false [trigger9], posts9 true [])) (by decide +kernel) (by decide +kernel)
    (x := col b!"posts" b!"title" b!"TEXT" false) (y := col b!"posts" b!"title" b!"TEXT" true)
    (by decide +kernel) (by decide +kernel) rfl (Or.inr (by decide)) (g := trigger9)
    (Or.inr ⟨rfl, by simp [posts9]⟩)
  refine ⟨text, hm, ?_⟩
  have e : b!"ALTER TABLE " ++ quoteIdentifier .sqlite ((posts9 true []).tableName ++ b!"_new") ++
        b!" RENAME TO " ++ quoteIdentifier .sqlite (posts9 true []).tableName ++ b!";\n" =
      b!"ALTER TABLE posts_new RENAME TO posts;\n" := by decide +kernel
  dsimp only at h
  rw [e] at h
  exact h

end Sqddl.Sqlite.Samples
