import Verif.Props.MysqlSample

/-!
# The foreign keys that the files of a MySQL migration add and drop (C37)
-/

namespace DdlText

/-- The constraint is a foreign key. -/
def Con.isForeign (c : Con) : Bool :=
  match c.kind with
  | .foreign _ _ => true
  | _ => false

/-- The foreign keys that a statement adds, with the table that they are added to. -/
def fkeysAdded : Stmt → List (Name × Con)
  | .alterTable n as => as.filterMap fun a =>
    match a with
    | .addConstraint c => if c.isForeign then some (n, c) else none
    | _ => none
  | .createTable n items => items.filterMap fun a =>
    match a with
    | .con c => if c.isForeign then some (n, c) else none
    | _ => none
  | _ => []

/-- The constraints that a statement drops, with the table that they are dropped from. -/
def consDropped : Stmt → List (Name × Str)
  | .alterTable n as => as.filterMap fun a =>
    match a with
    | .dropConstraint c => some (n, c)
    | _ => none
  | _ => []

end DdlText

namespace EngineSpec
open SqlSpec Sqddl DdlText CatalogSpec FileSpec Sqddl.Files Sqddl.Mysql

theorem isForeign_conOf (d : Dialect) (cur : Str) (c : Constraint) :
    (conOf d cur c).isForeign = decide (c.constraintType = b!"FOREIGN KEY") := by
  unfold Con.isForeign conOf kindOf
  dsimp only
  by_cases h : c.constraintType = b!"FOREIGN KEY"
  · rw [if_neg (by rw [h]; decide), if_neg (by rw [h]; decide), if_pos h, decide_eq_true h]
  · rw [if_neg h, decide_eq_false h]
    by_cases h1 : c.constraintType = b!"PRIMARY KEY"
    · rw [if_pos h1]
    · rw [if_neg h1]
      by_cases h2 : c.constraintType = b!"UNIQUE"
      · rw [if_pos h2]
      · rw [if_neg h2]
        by_cases h3 : c.constraintType = b!"CHECK"
        · rw [if_pos h3]
        · rw [if_neg h3]

theorem fkeysAdded_con {n : Name} {cur : Str} {c : Constraint} (h : c.constraintType ≠ b!"FOREIGN KEY") :
    fkeysAdded (.alterTable n [.addConstraint (conOf .mysql cur c)]) = [] := by
  simp only [fkeysAdded, isForeign_conOf, decide_eq_false h, List.filterMap_cons,
    Bool.false_eq_true, if_false, List.filterMap_nil]

theorem fkeysAdded_fkey {n : Name} {cur : Str} {c : Constraint} (h : c.constraintType = b!"FOREIGN KEY") :
    fkeysAdded (.alterTable n [.addConstraint (conOf .mysql cur c)]) = [(n, conOf .mysql cur c)] := by
  simp only [fkeysAdded, isForeign_conOf, decide_eq_true h, List.filterMap_cons,
    if_true, List.filterMap_nil]

theorem fkeysAdded_cons (n : Name) (a : Action) (as : List Action) :
    fkeysAdded (.alterTable n (a :: as)) =
      fkeysAdded (.alterTable n [a]) ++ fkeysAdded (.alterTable n as) := by
  simp only [fkeysAdded]
  rw [← List.filterMap_append]; rfl

theorem fkeysAdded_append (n : Name) (as bs : List Action) :
    fkeysAdded (.alterTable n (as ++ bs)) =
      fkeysAdded (.alterTable n as) ++ fkeysAdded (.alterTable n bs) := by
  simp only [fkeysAdded, List.filterMap_append]

theorem fkeysAdded_nil {α : Type} (n : Name) (f : α → Action) (xs : List α)
    (h : ∀ x ∈ xs, fkeysAdded (.alterTable n [f x]) = []) :
    fkeysAdded (.alterTable n (xs.map f)) = [] := by
  induction xs with
  | nil => rfl
  | cons x xs ih =>
    rw [List.map_cons, fkeysAdded_cons, h x (by simp), ih fun y hy => h y (by simp [hy])]; rfl

theorem flatMap_nil' {α β : Type} {f : α → List β} {xs : List α} (h : ∀ x ∈ xs, f x = []) :
    xs.flatMap f = [] := List.flatMap_eq_nil_iff.2 h

theorem flatMap_singleton' {α β : Type} (f : α → β) (xs : List α) :
    (xs.flatMap fun x => [f x]) = xs.map f := by
  induction xs with
  | nil => rfl
  | cons x xs ih => rw [List.flatMap_cons, ih]; rfl

theorem createTable_no_fkeys (cur coll : Str) (t : Table) :
    fkeysAdded (createTableOf .mysql cur coll true t) = [] := by
  unfold createTableOf fkeysAdded
  dsimp only
  rw [List.filterMap_append, List.append_eq_nil_iff, List.filterMap_map, List.filterMap_map]
  constructor
  · rw [List.filterMap_eq_nil_iff]; intro c _; rfl
  · rw [List.filterMap_eq_nil_iff]
    intro c hc
    have h : c.constraintType ≠ b!"FOREIGN KEY" := by
      have := (List.mem_filter.1 hc).2
      simpa using this
    simp only [Function.comp, isForeign_conOf, decide_eq_false h, Bool.false_eq_true, if_false]

section
variable {drop : Bool} {src dest : Catalog}
variable (hs : Described src) (hd : Described dest)

include hs hd in
/-- C37, MySQL: the statements of a migration add exactly the foreign keys that the source does not
have, each once and to the table that it belongs to. -/
theorem plan_adds_fkeys (cur coll : Str) :
    (plan cur coll (diffEvents .mysql src dest drop)).flatMap fkeysAdded =
      (liveTables dest).flatMap fun t =>
        ((liveConstraints t).filter fun c =>
          foreignKey c && !hasTableConstraint src t.tableSchema t.tableName c.constraintName).map
          fun c => (fullName cur t.tableSchema t.tableName, conOf .mysql cur c) := by
  unfold plan
  simp only [List.flatMap_append, List.flatMap_map]
  rw [flatMap_nil' (f := fun a => fkeysAdded (dropConstraintOf cur a)) fun c _ => rfl,
    flatMap_nil' (f := fun a : Schema => fkeysAdded (.dropSchema a.schemaName)) fun c _ => rfl,
    flatMap_nil' (f := fun a => fkeysAdded (.createSchema a)) fun c _ => rfl,
    flatMap_nil' (f := fun a : Table =>
      fkeysAdded (.dropTable (fullName cur a.tableSchema a.tableName))) fun c _ => rfl]
  rw [List.flatMap_assoc, flatMap_nil' (f := fun a => List.flatMap fkeysAdded (createOf cur coll a)) fun t _ => by
    unfold createOf
    rw [List.flatMap_cons, createTable_no_fkeys, List.flatMap_map,
      flatMap_nil' (f := fun x => fkeysAdded (createIndexOf .mysql cur false x)) fun x _ => rfl]
    rfl]
  rw [flatMap_nil' (f := fun a => fkeysAdded (DdlText.alterTableOf .mysql cur coll a)) fun a ha => by
    unfold DdlText.alterTableOf alterActions
    simp only [fkeysAdded_append]
    rw [fkeysAdded_nil _ _ _ fun _ _ => rfl, fkeysAdded_nil _ _ _ fun _ _ => rfl,
      fkeysAdded_nil _ _ _ fun _ _ => rfl, fkeysAdded_nil _ _ _ fun _ _ => rfl,
      fkeysAdded_nil _ _ _ fun _ _ => rfl, fkeysAdded_nil _ _ _ fun _ _ => rfl,
      fkeysAdded_nil _ _ _ fun c hc => ?_]
    · rfl
    · apply fkeysAdded_con
      have : (a.destTable, c) ∈ ((diffEvents .mysql src dest drop).filterMap Ev.alter?).flatMap
          fun a => a.addConstraints.map fun x => (a.destTable, x) :=
        List.mem_flatMap.2 ⟨a, ha, List.mem_map.2 ⟨c, hc, rfl⟩⟩
      rw [mysql_addConstraints_exact hs.ok hd.ok drop] at this
      obtain ⟨p, -, h2⟩ := List.mem_flatMap.1 this
      obtain ⟨x, h3, h4⟩ := List.mem_map.1 h2
      injection h4 with h4 h5
      subst h5
      have h6 := (List.mem_filter.1 h3).2
      intro hf
      have e1 : (PRIMARY_KEY : Str) = b!"PRIMARY KEY" := rfl
      have e2 : (UNIQUE : Str) = b!"UNIQUE" := rfl
      split at h6
      · simp [keyConstraint, hf, e1, e2] at h6
      · simp [rekeyed, hf, e1] at h6]
  rw [addFkeys_exact server hs.ok hd.ok drop]
  simp only [List.nil_append]
  rw [List.flatMap_assoc]
  refine flatMap_congr' fun t ht => ?_
  rw [← flatMap_singleton' (fun c => (fullName cur t.tableSchema t.tableName, conOf .mysql cur c))]
  refine flatMap_congr' fun c hc => ?_
  obtain ⟨h1, h2⟩ := List.mem_filter.1 hc
  rw [Bool.and_eq_true] at h2
  obtain ⟨h3, h4⟩ := hd.constraints t ht c h1
  unfold addConstraintOf
  rw [fkeysAdded_fkey (eq_of_beq h2.1), h3, h4]

include hs hd in
/-- C37, MySQL: the statements of a migration drop exactly the foreign keys that the destination
does not have (with dropObjects), each once and from the table that it belongs to, and the keys
that the destination does not have or has with other columns. -/
theorem plan_drops_fkeys (cur coll : Str) :
    ((plan cur coll (diffEvents .mysql src dest drop)).flatMap consDropped).Perm
      ((if drop then (liveTables src).flatMap fun t =>
        ((liveConstraints t).filter fun c =>
          foreignKey c && !hasTableConstraint dest t.tableSchema t.tableName c.constraintName).map
          fun c => (fullName cur t.tableSchema t.tableName, c.constraintName) else []) ++
      (commonTables src dest).flatMap fun p =>
        ((if drop then (liveConstraints p.1).filter fun c =>
          keyConstraint c && !hasConstraint p.2 c.constraintName else []) ++
        ((CatalogSpec.commonConstraints p.1 p.2).filter rekeyed).map (·.1)).map
          fun x => (fullName cur p.2.tableSchema p.2.tableName, x.constraintName)) := by
  unfold plan
  simp only [List.flatMap_append, List.flatMap_map]
  rw [flatMap_nil' (f := fun a => consDropped (addConstraintOf .mysql cur a)) fun c _ => rfl,
    flatMap_nil' (f := fun a : Schema => consDropped (.dropSchema a.schemaName)) fun c _ => rfl,
    flatMap_nil' (f := fun a => consDropped (.createSchema a)) fun c _ => rfl,
    flatMap_nil' (f := fun a : Table =>
      consDropped (.dropTable (fullName cur a.tableSchema a.tableName))) fun c _ => rfl]
  rw [List.flatMap_assoc, flatMap_nil' (f := fun a => List.flatMap consDropped (createOf cur coll a)) fun t _ => by
    unfold createOf
    rw [List.flatMap_cons, List.flatMap_map,
      flatMap_nil' (f := fun x => consDropped (createIndexOf .mysql cur false x)) fun x _ => rfl]
    rfl]
  simp only [List.append_nil]
  refine List.Perm.append ?_ ?_
  · have hp := (dropFkeys_exact server hs.ok hd.ok drop).map fun c : Constraint =>
      (fullName cur c.tableSchema c.tableName, c.constraintName)
    have e : ∀ xs : List Constraint, (xs.flatMap fun c => consDropped (dropConstraintOf cur c)) =
        xs.map fun c => (fullName cur c.tableSchema c.tableName, c.constraintName) := by
      intro xs
      induction xs with
      | nil => rfl
      | cons x xs ih => rw [List.flatMap_cons, ih]; rfl
    rw [e]
    refine hp.trans (List.Perm.of_eq ?_)
    cases drop with
    | false => rfl
    | true =>
      rw [if_pos rfl, if_pos rfl, List.map_flatMap]
      refine flatMap_congr' fun t ht => ?_
      refine List.map_congr_left fun c hc => ?_
      obtain ⟨h1, -⟩ := List.mem_filter.1 hc
      obtain ⟨h3, h4⟩ := hs.constraints t ht c h1
      rw [h3, h4]
  · have h := congrArg (fun l => l.map fun q : Table × Constraint =>
        (fullName cur q.1.tableSchema q.1.tableName, q.2.constraintName))
      (mysql_dropConstraints_exact hs.ok hd.ok drop)
    simp only [List.map_flatMap, List.map_map] at h
    refine List.Perm.of_eq (Eq.trans ?_ h)
    refine flatMap_congr' fun a _ => ?_
    unfold DdlText.alterTableOf alterActions consDropped
    simp only [List.filterMap_append, List.filterMap_map]
    simp only [Function.comp_def, filterMap_none', List.append_nil]
    rw [← List.filterMap_eq_map]
    rfl

variable {pre : Str}

include hs hd in
/-- C37, MySQL, with the files: what `migrate` runs is read as statements of which exactly the
foreign keys that are missing are added, and those that are surplus dropped, at their own tables. -/
theorem mysql_files_fkeys (hn : Nameable pre src dest)
    (he : Expressible src.currentSchema src.defaultCollation src dest) :
    ∃ sts, readFiles src.currentSchema (fun f => (migration pre src dest drop).1.lookup f)
        (sortAndFilter ((migration pre src dest drop).1.map (·.1))) = some sts ∧
      sts.flatMap fkeysAdded = ((liveTables dest).flatMap fun t =>
        ((liveConstraints t).filter fun c =>
          foreignKey c && !hasTableConstraint src t.tableSchema t.tableName c.constraintName).map
          fun c => (fullName src.currentSchema t.tableSchema t.tableName,
            conOf .mysql src.currentSchema c)) ∧
      (sts.flatMap consDropped).Perm
        ((if drop then (liveTables src).flatMap fun t =>
          ((liveConstraints t).filter fun c =>
            foreignKey c && !hasTableConstraint dest t.tableSchema t.tableName c.constraintName).map
            fun c => (fullName src.currentSchema t.tableSchema t.tableName, c.constraintName)
          else []) ++
        (commonTables src dest).flatMap fun p =>
          ((if drop then (liveConstraints p.1).filter fun c =>
            keyConstraint c && !hasConstraint p.2 c.constraintName else []) ++
          ((CatalogSpec.commonConstraints p.1 p.2).filter rekeyed).map (·.1)).map
            fun x => (fullName src.currentSchema p.2.tableSchema p.2.tableName, x.constraintName)) :=
  ⟨_, forward_reads_back (drop := drop) hs hd hn he, plan_adds_fkeys hs hd _ _,
    plan_drops_fkeys hs hd _ _⟩

end

namespace Shop

example : ∃ sts, readFiles b!"shop" (fun f => (migration b!"20200101" src dest true).1.lookup f)
        (sortAndFilter ((migration b!"20200101" src dest true).1.map (·.1))) = some sts ∧
      (sts.flatMap fkeysAdded).map (fun p => (p.1, p.2.name)) =
        [((some b!"shop", b!"order"), some b!"order customer"),
         ((some b!"shop", b!"item"), some b!"item_order")] ∧
      (sts.flatMap consDropped).Perm [((some b!"shop", b!"legacy"), b!"legacy_fk")] := by
  obtain ⟨sts, h1, h2, h3⟩ := mysql_files_fkeys (pre := b!"20200101") (drop := true) src_described
    dest_described nameable expressible
  refine ⟨sts, h1, ?_, h3.trans (List.Perm.of_eq (by decide +kernel))⟩
  rw [h2]
  decide +kernel

end Shop

end EngineSpec
