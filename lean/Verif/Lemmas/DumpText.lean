import Verif.Lemmas.DumpRuns
import Verif.Lemmas.Fragment
import Verif.Lemmas.Diff
import Verif.Props.RenderStmt
import Verif.Model.Dump
import Verif.Spec.Dump

/-!
# The files of a dump as texts
-/

namespace SqlSpec
open Go Sqddl

theorem sep_newline (d : Dialect) (y : Str) : Sep d ('\n' :: y) :=
  sep_simple d '\n' y (by cases d <;> decide) (by decide)

/-- Text on lines of its own is read the same way whatever follows. -/
theorem reads_of_lex (d : Dialect) : ∀ (n : Nat) (s : Str), s.length ≤ n → ∀ ts, lex d s = some ts →
    Reads d (s ++ b!"\n") ts := by
  intro n
  induction n with
  | zero =>
    intro s hs ts h
    have : s = [] := List.eq_nil_of_length_eq_zero (by omega)
    subst this
    simp at h; subst h
    exact reads_space d '\n' (by decide)
  | succ n ih =>
    intro s hs ts h
    cases s with
    | nil =>
      simp at h; subst h
      exact reads_space d '\n' (by decide)
    | cons c r =>
      rw [lex_cons] at h
      cases e : lexOne d c r with
      | none => rw [e] at h; cases h
      | some p =>
        obtain ⟨o, t⟩ := p
        have hl := lexOne_length d c r o t e
        have ht : t.length ≤ n := by simp at hs; omega
        rw [e, Option.bind_some] at h
        intro rest
        have e1 : c :: r ++ b!"\n" ++ rest = c :: (r ++ '\n' :: rest) := by simp
        have key : lexOne d c (r ++ '\n' :: rest) = some (o, t ++ '\n' :: rest) := by
          by_cases hc : c = '-' ∧ r.head? = some '-' ∧ ∀ e ∈ r, e ≠ '\n'
          · obtain ⟨rfl, h2, h3⟩ := hc
            have q1 : '-' ≠ openQ d := by cases d <;> decide
            have q2 : ∀ r' : Str, r'.head? = some '-' →
                lexOne d '-' r' = some (none, r'.dropWhile (· != '\n')) := by
              intro r' hr
              unfold lexOne
              rw [if_neg (by decide), if_neg q1, if_neg (by decide), if_neg (by decide),
                if_pos ⟨rfl, hr⟩]
            rw [q2 r h2] at e
            have d1 : r.dropWhile (· != '\n') = [] :=
              dropWhile_nil _ _ fun c hc => by simpa using h3 c hc
            rw [d1] at e
            cases e
            rw [q2 _ (by cases r <;> simp_all)]
            rw [(takeWhile_append' (· != '\n') r ('\n' :: rest) (by simp)).2, d1]
          · exact lexOne_append d c r _ (sep_newline d rest) o t e hc
        rw [e1, lex_cons, key, Option.bind_some]
        cases o with
        | none =>
          have := ih t ht ts h rest
          simpa using this
        | some k =>
          obtain ⟨ts', h1, rfl⟩ := Option.map_eq_some_iff.1 h
          have := ih t ht ts' h1 rest
          simp only [List.append_assoc, List.cons_append, List.nil_append] at this
          dsimp only
          rw [this]
          cases lex d rest <;> simp

/-- A comment on a line of its own is not read. -/
theorem reads_comment (d : Dialect) (s : Str) (h : '\n' ∉ s) : Reads d (b!"-- " ++ s ++ b!"\n") [] := by
  refine reads_of_lex d _ (b!"-- " ++ s) (Nat.le_refl _) [] ?_
  show lex d ('-' :: ('-' :: ' ' :: s)) = _
  rw [lex_cons]
  have q1 : '-' ≠ openQ d := by cases d <;> decide
  have : lexOne d '-' ('-' :: ' ' :: s) = some (none, ('-' :: ' ' :: s).dropWhile (· != '\n')) := by
    unfold lexOne
    rw [if_neg (by decide), if_neg q1, if_neg (by decide), if_neg (by decide), if_pos ⟨rfl, rfl⟩]
  rw [this, dropWhile_nil _ _ ?_]
  · rfl
  · intro c hc
    simp only [List.mem_cons] at hc
    rcases hc with rfl | rfl | hc
    · decide
    · decide
    · have : c ≠ '\n' := fun e => h (e ▸ hc)
      simpa using this

end SqlSpec

namespace DumpParts
open Go SqlSpec Sqddl DdlText EngineSpec Sqddl.Render CatalogSpec
open Sqddl.Wipe (qualified buffer addStmt)

/-- The definition of an index is read as the index. -/
theorem createIndex_isStmt {d : Dialect} {cur : Str} {x : Index} {y : Idx}
    (h0 : x.sql = [] → IndexOk d false x) (h : DumpSpec.indexMeans d (keywords d) cur x = some y) :
    IsStmt d cur (createIndex d cur x false) (.createIndex y) := by
  unfold DumpSpec.indexMeans at h
  by_cases hs : x.sql = []
  · rw [if_pos hs] at h
    simp at h; subst h
    exact createIndex_reads_back d cur false x hs (h0 hs)
  · rw [if_neg hs] at h
    obtain ⟨ts, h1, h2⟩ := Option.bind_eq_some_iff.1 h
    by_cases hc : ts.getLast? = some (.punct ';') ∧ Tok.punct ';' ∉ ts.dropLast
    · rw [if_pos hc] at h2
      have e : createIndex d cur x false = x.sql ++ b!"\n" := by
        unfold createIndex
        rw [if_pos hs]
        simp
      have et : ts.dropLast ++ [.punct ';'] = ts := by
        obtain ⟨ys, hy⟩ := List.getLast?_eq_some_iff.1 hc.1
        rw [hy]; simp
      rw [e]
      refine ⟨by simp, ts.dropLast, ?_, hc.2, ?_⟩
      · rw [et]
        exact reads_of_lex d _ x.sql (Nat.le_refl _) ts h1
      · cases hr : readStmt d (keywords d) ts.dropLast with
        | none => rw [hr] at h2; cases h2
        | some st =>
          rw [hr] at h2
          cases st with
          | createIndex z => simp at h2; subst h2; rfl
          | _ => cases h2
    · rw [if_neg hc] at h2; cases h2

/-! ## Scripts -/

/-- `P s sts`: the text `s` is these statements. -/
structure Scripts {α : Type} (d : Dialect) (P : Str → List α → Prop) : Prop where
  gap : ∀ s, Reads d s [] → P s []
  append : ∀ {s t a b}, P s a → P t b → P (s ++ t) (a ++ b)

section
variable {α β : Type} {d : Dialect} {P : Str → List α → Prop} (hP : Scripts d P)

include hP in
theorem Scripts.flatMap (f : β → Str) (g : β → List α) (xs : List β) (h : ∀ x ∈ xs, P (f x) (g x)) :
    P (xs.flatMap f) (xs.flatMap g) := by
  induction xs with
  | nil => exact hP.gap [] (Reads.nil d)
  | cons x xs ih =>
    rw [List.flatMap_cons, List.flatMap_cons]
    exact hP.append (h x (by simp)) (ih fun y hy => h y (by simp [hy]))

/-- Texts that are these statements. -/
inductive Pieces (P : Str → List α → Prop) : List Str → List α → Prop
  | nil : Pieces P [] []
  | cons {s ss a b} : s ≠ [] → P s a → Pieces P ss b → Pieces P (s :: ss) (a ++ b)

theorem Pieces.append {ss ss' : List Str} {a b : List α} (h1 : Pieces P ss a) (h2 : Pieces P ss' b) :
    Pieces P (ss ++ ss') (a ++ b) := by
  induction h1 with
  | nil => exact h2
  | cons h0 h _ ih => rw [List.append_assoc]; exact .cons h0 h ih

theorem Pieces.flatMap (f : β → List Str) (g : β → List α) (xs : List β)
    (h : ∀ x ∈ xs, Pieces P (f x) (g x)) : Pieces P (xs.flatMap f) (xs.flatMap g) := by
  induction xs with
  | nil => exact .nil
  | cons x xs ih =>
    rw [List.flatMap_cons, List.flatMap_cons]
    exact (h x (by simp)).append (ih fun y hy => h y (by simp [hy]))

theorem Pieces.map (f : β → Str) (g : β → List α) (xs : List β)
    (h : ∀ x ∈ xs, f x ≠ [] ∧ P (f x) (g x)) : Pieces P (xs.map f) (xs.flatMap g) := by
  induction xs with
  | nil => exact .nil
  | cons x xs ih =>
    rw [List.map_cons, List.flatMap_cons]
    exact .cons (h x (by simp)).1 (h x (by simp)).2 (ih fun y hy => h y (by simp [hy]))

theorem Pieces.each (f : β → Str) (g : β → α) (xs : List β)
    (h : ∀ x ∈ xs, f x ≠ [] ∧ P (f x) [g x]) : Pieces P (xs.map f) (xs.map g) := by
  rw [List.map_eq_flatMap (f := g)]
  exact Pieces.map f _ xs h

include hP in
theorem Scripts.each (f : β → Str) (g : β → α) (xs : List β) (h : ∀ x ∈ xs, P (f x) [g x]) :
    P (xs.flatMap f) (xs.map g) := by
  rw [List.map_eq_flatMap (f := g)]
  exact hP.flatMap f _ xs h

include hP in
/-- A buffer of texts. -/
theorem Pieces.script {ss : List Str} {sts : List α} (h : Pieces P ss sts) : P (buffer ss) sts := by
  have e : ∀ ss : List Str, ∀ s : Str, s ≠ [] →
      buffer (s :: ss) = s ++ ss.flatMap fun q => b!"\n" ++ q := by
    intro ss s hs
    simp only [buffer, List.foldl_cons]
    have : addStmt [] s = s := by simp [addStmt]
    rw [this, Wipe.buffer_fold _ _ hs]
  have tail : ∀ {ss : List Str} {b : List α}, Pieces P ss b → P (ss.flatMap fun q => b!"\n" ++ q) b := by
    intro ss b h
    induction h with
    | nil => exact hP.gap [] (Reads.nil d)
    | cons h0 h _ ih =>
      simp only [List.flatMap_cons]
      refine hP.append ?_ ih
      exact hP.append (hP.gap _ (reads_space d '\n' (by decide))) h
  cases h with
  | nil => exact hP.gap [] (Reads.nil d)
  | cons h0 h ht =>
    rw [e _ _ h0]
    exact hP.append h (tail ht)

end

/-! ## What a dump creates -/

/-- The full name of a table. -/
def tname (cur : Str) (t : Table) : Name := fullName cur t.tableSchema t.tableName

/-- The index; nothing if its definition cannot be read. -/
def idxMakes (d : Dialect) (cur : Str) (t : Table) (x : Index) : List Make :=
  ((DumpSpec.indexMeans d (keywords d) cur x).map fun y => .idx (tname cur t) y).toList

/-- The constraint. -/
def conMake (d : Dialect) (cur : Str) (t : Table) (x : Constraint) : Make :=
  .con (tname cur t) x.constraintName (conOf d cur x)

/-- The table, with its primary key on MySQL and SQL Server. -/
def tableMake (d : Dialect) (cur coll : Str) (t : Table) : Make :=
  .table (tname cur t) (t.columns.map (colOf d coll false))
    ((t.constraints.find? fun x => (d = .mysql || d = .sqlserver) && DdlText.primaryKey x).map
      fun x => (x.constraintName, conOf d cur x))

/-- The foreign keys of a table. -/
def fkeysOf (t : Table) : List Constraint := t.constraints.filter foreignKey

/-- The schemas. -/
def schemaMakes (c : Catalog) : List Make := c.schemas.map fun s => .schema s.schemaName

/-- The tables. -/
def tableMakes (d : Dialect) (c : Catalog) : List Make :=
  c.schemas.flatMap fun s => s.tables.map (tableMake d c.currentSchema c.defaultCollation)

/-- The indexes. -/
def indexMakes (d : Dialect) (c : Catalog) : List Make :=
  c.schemas.flatMap fun s => s.tables.flatMap fun t => t.indexes.flatMap (idxMakes d c.currentSchema t)

/-- The constraints of a schema that are not foreign keys, then its foreign keys. -/
def lateMakes (d : Dialect) (cur : Str) (s : Schema) : List Make :=
  s.tables.flatMap fun t => (Dump.lateConstraints d t).map (conMake d cur t)

/-- See `lateMakes`. -/
def fkeyMakes (d : Dialect) (cur : Str) (s : Schema) : List Make :=
  s.tables.flatMap fun t => (fkeysOf t).map (conMake d cur t)

/-- The constraints. -/
def conMakes (d : Dialect) (c : Catalog) : List Make :=
  c.schemas.flatMap fun s => lateMakes d c.currentSchema s ++ fkeyMakes d c.currentSchema s

section
variable {α : Type} {d : Dialect} {P : Str → List α → Prop} (hP : Scripts d P) (stmt : Make → α)
  {c : Catalog} {sn : Str → Prop} (h : DumpSpec.Dumpable d (keywords d) sn c)

include hP h in
/-- schema.sql -/
theorem schema_script_types (ext : Str → α) (enum : Schema → Enum → α) (dom : Schema → Domain → α)
    (hE : ∀ e ∈ c.extensions, Dump.createExtension d e ≠ [] ∧ P (Dump.createExtension d e) [ext e])
    (hS : ∀ s ∈ c.schemas, createSchema d s.schemaName ≠ [] ∧
      P (createSchema d s.schemaName) [stmt (.schema s.schemaName)])
    (hN : ∀ s ∈ c.schemas, ∀ e ∈ s.enums, Dump.createEnum d c.currentSchema s.schemaName e ≠ [] ∧
      P (Dump.createEnum d c.currentSchema s.schemaName e) [enum s e])
    (hD : ∀ s ∈ c.schemas, ∀ x ∈ s.domains,
      Dump.createDomain d c.currentSchema c.defaultCollation s.schemaName x ≠ [] ∧
      P (Dump.createDomain d c.currentSchema c.defaultCollation s.schemaName x) [dom s x])
    (hT : ∀ s ∈ c.schemas, ∀ t ∈ s.tables, createTable d c.currentSchema c.defaultCollation t false ≠ [] ∧
      P (createTable d c.currentSchema c.defaultCollation t false)
        [stmt (tableMake d c.currentSchema c.defaultCollation t)]) :
    P (Dump.dumpSchema d c) (c.extensions.map ext ++ (c.schemas.flatMap fun s =>
      stmt (.schema s.schemaName) :: s.enums.map (enum s) ++ s.domains.map (dom s)) ++
      (tableMakes d c).map stmt) := by
  unfold Dump.dumpSchema
  refine Pieces.script hP ?_
  refine Pieces.append (Pieces.append ?_ ?_) ?_
  · exact Pieces.each _ _ _ hE
  · refine Pieces.flatMap _ _ _ fun s hs => ?_
    obtain ⟨_, h1, _⟩ := h.schemas s hs
    unfold Dump.schemaStmts
    rw [if_pos h1]
    refine Pieces.append ?_ (Pieces.each _ _ _ (hD s hs))
    exact Pieces.cons (hS s hs).1 (hS s hs).2 (Pieces.each _ _ _ (hN s hs))
  · rw [tableMakes, List.map_flatMap]
    refine Pieces.flatMap _ _ _ fun s hs => ?_
    unfold Dump.tableStmts
    have e : (s.tables.filter fun t => !(t.isVirtual && t.sql = [])) = s.tables := by
      rw [List.filter_eq_self]
      intro t ht
      rw [(h.tables s hs t ht).ignore.2]; rfl
    rw [e, List.map_map]
    exact Pieces.each _ _ _ fun t ht => hT s hs t ht

include hP h in
/-- schema.sql, if there are no extensions, enums and domains -/
theorem schema_script (h0 : DumpSpec.NoTypes c)
    (hS : ∀ s ∈ c.schemas, createSchema d s.schemaName ≠ [] ∧
      P (createSchema d s.schemaName) [stmt (.schema s.schemaName)])
    (hT : ∀ s ∈ c.schemas, ∀ t ∈ s.tables, createTable d c.currentSchema c.defaultCollation t false ≠ [] ∧
      P (createTable d c.currentSchema c.defaultCollation t false)
        [stmt (tableMake d c.currentSchema c.defaultCollation t)]) :
    P (Dump.dumpSchema d c) ((schemaMakes c ++ tableMakes d c).map stmt) := by
  have key := schema_script_types hP stmt h (fun _ => stmt (.schema [])) (fun s _ => stmt (.schema s.schemaName))
    (fun s _ => stmt (.schema s.schemaName)) (fun e he => by rw [h0.1] at he; cases he) hS
    (fun s hs e he => by rw [(h0.2 s hs).1] at he; cases he)
    (fun s hs e he => by rw [(h0.2 s hs).2] at he; cases he) hT
  have e : (c.schemas.flatMap fun s => stmt (.schema s.schemaName) ::
      s.enums.map (fun _ => stmt (.schema s.schemaName)) ++
      s.domains.map (fun _ => stmt (.schema s.schemaName))) = (schemaMakes c).map stmt := by
    rw [schemaMakes, List.map_map, List.map_eq_flatMap]
    have h1 := h0.2
    generalize c.schemas = ss at h1
    induction ss with
    | nil => rfl
    | cons s ss ih =>
      rw [List.flatMap_cons, List.flatMap_cons, ih fun x hx => h1 x (by simp [hx]), (h1 s (by simp)).1,
        (h1 s (by simp)).2]
      rfl
  rw [e, h0.1, List.map_nil, List.nil_append, ← List.map_append] at key
  exact key

theorem heading_ne (cur : Str) (t : Table) (r : Str) : Dump.heading cur t ++ r ≠ [] := by
  unfold Dump.heading
  simp

include hP h in
theorem heading_script {s : Schema} (hs : s ∈ c.schemas) {t : Table} (ht : t ∈ s.tables) :
    P (Dump.heading c.currentSchema t) [] := by
  obtain ⟨l1, l2⟩ := (h.tables s hs t ht).line
  have e : Dump.heading c.currentSchema t = b!"-- " ++ ((if t.tableSchema ≠ [] ∧
      t.tableSchema ≠ c.currentSchema then t.tableSchema ++ b!"." else []) ++ t.tableName) ++ b!"\n" := by
    unfold Dump.heading; simp only [List.append_assoc]
  rw [e]
  refine hP.gap _ (reads_comment d _ ?_)
  intro hm
  rcases List.mem_append.1 hm with hm | hm
  · by_cases hq : t.tableSchema ≠ [] ∧ t.tableSchema ≠ c.currentSchema
    · rw [if_pos hq] at hm
      rcases List.mem_append.1 hm with hm | hm
      · exact l1 hm
      · revert hm; decide
    · rw [if_neg hq] at hm; cases hm
  · exact l2 hm

include hP h in
/-- indexes.sql -/
theorem index_script
    (hX : ∀ s ∈ c.schemas, ∀ t ∈ s.tables, ∀ x ∈ t.indexes, ∀ y,
      DumpSpec.indexMeans d (keywords d) c.currentSchema x = some y →
      P (createIndex d c.currentSchema x false) [stmt (.idx (tname c.currentSchema t) y)]) :
    P (Dump.dumpIndexes d c) ((indexMakes d c).map stmt) := by
  unfold Dump.dumpIndexes
  refine Pieces.script hP ?_
  rw [indexMakes, List.map_flatMap]
  refine Pieces.flatMap _ _ _ fun s hs => ?_
  rw [List.map_flatMap]
  refine Pieces.map _ _ _ fun t ht => ⟨heading_ne _ _ _, ?_⟩
  unfold Dump.indexBlock
  refine hP.append (heading_script hP h hs ht) (a := []) ?_
  rw [List.map_flatMap]
  refine hP.flatMap _ _ _ fun x hx => ?_
  obtain ⟨_, y, hy, _⟩ := (h.tables s hs t ht).indexes x hx
  rw [idxMakes, hy]
  exact hX s hs t ht x hx y hy

include hP h in
/-- constraints.sql -/
theorem constraint_script (hd : d ≠ .sqlite)
    (hC : ∀ s ∈ c.schemas, ∀ t ∈ s.tables, ∀ x ∈ t.constraints,
      P (Dump.addConstraint d c.currentSchema x) [stmt (conMake d c.currentSchema t x)]) :
    P (Dump.dumpConstraints d c) ((conMakes d c).map stmt) := by
  unfold Dump.dumpConstraints
  rw [if_neg hd]
  refine Pieces.script hP ?_
  rw [conMakes, List.map_flatMap]
  refine Pieces.flatMap _ _ _ fun s hs => ?_
  rw [List.map_append, lateMakes, fkeyMakes, List.map_flatMap, List.map_flatMap]
  refine Pieces.append (Pieces.map _ _ _ fun t ht => ⟨heading_ne _ _ _, ?_⟩)
    (Pieces.map _ _ _ fun t ht => ⟨heading_ne _ _ _, ?_⟩)
  · unfold Dump.constraintBlock
    refine hP.append (heading_script hP h hs ht) (a := []) ?_
    rw [List.map_map]
    exact hP.each _ _ _ fun x hx => hC s hs t ht x (List.mem_filter.1 hx).1
  · unfold Dump.fkeyBlock
    refine hP.append (heading_script hP h hs ht) (a := []) ?_
    have ht0 := h.tables s hs t ht
    have e : (newCatalogCache c).getForeignKeys t = fkeysOf t := by
      rw [getForeignKeys_live h.ok ⟨s, hs, ht⟩, liveConstraints, fkeysOf, List.filter_filter]
      refine List.filter_congr fun x hx => ?_
      rw [(ht0.constraints x hx).1]; simp
    rw [e, List.map_map]
    exact hP.each _ _ _ fun x hx => hC s hs t ht x (List.mem_filter.1 hx).1

end

end DumpParts
