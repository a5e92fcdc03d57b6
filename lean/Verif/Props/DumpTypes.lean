import Verif.Lemmas.DumpTypes

/-!
# The SQL files of a dump recreate extensions, enums and domains (C98)
-/

namespace PgTypes
open Go SqlSpec Sqddl DdlText EngineSpec Sqddl.Render DumpParts
open DumpSpec (Dumpable Ordered KeysNotNull)

/-! ## Running lists of statements -/

theorem Runs.append {uses : List Tok → List Key} {st mid st' : State} {a b : List Stmt}
    (h1 : Runs uses st a mid) (h2 : Runs uses mid b st') : Runs uses st (a ++ b) st' := by
  induction a generalizing st with
  | nil => rw [show st = mid from h1]; exact h2
  | cons s a ih => exact ⟨h1.1, ih h1.2⟩

/-- Statements that are accepted after those before them. -/
theorem runs_map {β : Type} {uses : List Tok → List Key} {st : State} (A : List Stmt) (xs : List β)
    (f : β → Stmt)
    (h : ∀ p x q, xs = p ++ x :: q → Accepts uses ((A ++ p.map f).foldl effect st) (f x)) :
    Runs uses (A.foldl effect st) (xs.map f) ((A ++ xs.map f).foldl effect st) := by
  induction xs generalizing A with
  | nil => rw [List.map_nil, List.append_nil]; rfl
  | cons x xs ih =>
    refine ⟨by simpa using h [] x xs rfl, ?_⟩
    have := ih (A ++ [f x]) fun p y q e => by
      have := h (x :: p) y q (by rw [e]; rfl)
      simpa [List.append_assoc] using this
    simpa [List.append_assoc] using this

/-- The statements on schemas and tables. -/
def otherIn (xs : List Stmt) : List PgText.Stmt := xs.filterMap fun | .other s => some s | _ => none

/-- The extensions that are created. -/
def extIn (xs : List Stmt) : List Str := xs.filterMap fun | .extension n => some n | _ => none

/-- The enums that are created. -/
def enumIn (xs : List Stmt) : List (Key × List Str) :=
  xs.filterMap fun | .enum n ls => some (key n, ls) | _ => none

/-- The domains that are created. -/
def domIn (xs : List Stmt) : List (Key × Dom) :=
  xs.filterMap fun | .domain n x => some (key n, x) | _ => none

/-- The function with new values. -/
def puts {α : Type} (f : Key → Option α) (xs : List (Key × α)) : Key → Option α :=
  xs.foldl (fun f p => put f p.1 (some p.2)) f

theorem fold_effect (xs : List Stmt) (st : State) : xs.foldl effect st =
    ⟨(otherIn xs).foldl PgSpec.effect st.db, (extIn xs).foldl (fun f n => put f n true) st.exts,
      puts st.enum (enumIn xs), puts st.dom (domIn xs)⟩ := by
  induction xs generalizing st with
  | nil => rfl
  | cons x xs ih =>
    rw [List.foldl_cons, ih]
    cases x <;> rfl

theorem puts_other {α : Type} {f : Key → Option α} {xs : List (Key × α)} {k : Key}
    (h : k ∉ xs.map (·.1)) : puts f xs k = f k := by
  induction xs generalizing f with
  | nil => rfl
  | cons p xs ih =>
    simp only [List.map_cons, List.mem_cons, not_or] at h
    show puts (put f p.1 (some p.2)) xs k = _
    rw [ih h.2]
    unfold put
    rw [if_neg h.1]

theorem puts_some {α : Type} {f : Key → Option α} {xs : List (Key × α)} {k : Key}
    (h : k ∈ xs.map (·.1) ∨ (f k).isSome) : (puts f xs k).isSome := by
  induction xs generalizing f with
  | nil =>
    rcases h with h | h
    · cases h
    · exact h
  | cons p xs ih =>
    show (puts (put f p.1 (some p.2)) xs k).isSome
    refine ih ?_
    unfold put
    by_cases hk : k = p.1
    · rw [if_pos hk]; exact .inr rfl
    · rw [if_neg hk]
      rcases h with h | h
      · simp only [List.map_cons, List.mem_cons] at h
        exact .inl (h.resolve_left hk)
      · exact .inr h

theorem puts_look {α : Type} {f : Key → Option α} {xs : List (Key × α)} (h : (xs.map (·.1)).Nodup)
    (hf : ∀ k ∈ xs.map (·.1), f k = none) (k : Key) : puts f xs k = (look xs k).or (f k) := by
  induction xs generalizing f with
  | nil => rfl
  | cons p xs ih =>
    rw [List.map_cons, List.nodup_cons] at h
    show puts (put f p.1 (some p.2)) xs k = _
    by_cases hk : k = p.1
    · rw [puts_other (by rw [hk]; exact h.1)]
      subst hk
      simp [put, look]
    · rw [ih h.2]
      · have : (p.1 == k) = false := by simpa using fun e => hk e.symm
        unfold put look
        rw [if_neg hk, List.find?_cons, this]
      · intro j hj
        unfold put
        rw [if_neg (by rintro rfl; exact h.1 hj)]
        exact hf j (List.mem_cons_of_mem _ hj)

theorem look_none {α : Type} {xs : List (Key × α)} {k : Key} (h : k ∉ xs.map (·.1)) : look xs k = none := by
  unfold look
  rw [List.find?_eq_none.2, Option.map_none]
  intro p hp e
  exact h (List.mem_map.2 ⟨p, hp, by simpa using e⟩)

theorem look_some {α : Type} {xs : List (Key × α)} {k : Key} (h : k ∈ xs.map (·.1)) :
    (look xs k).isSome := by
  unfold look
  rw [Option.isSome_map, List.find?_isSome]
  obtain ⟨p, hp, rfl⟩ := List.mem_map.1 h
  exact ⟨p, hp, by simp⟩

theorem fold_schemas (xs : List Str) (E : Str → Bool) :
    (xs.map fun n => PgText.Stmt.base (.createSchema n)).foldl PgSpec.effect (DumpSpec.empty E) =
      DumpSpec.empty fun n => E n || xs.contains n := by
  induction xs generalizing E with
  | nil => simp [DumpSpec.empty]
  | cons x xs ih =>
    rw [List.map_cons, List.foldl_cons]
    show ((xs.map fun n => PgText.Stmt.base (.createSchema n)).foldl PgSpec.effect
      (DumpSpec.empty (put E x true))) = _
    rw [ih]
    congr 1
    funext n
    unfold put
    by_cases hn : n = x
    · subst hn; simp
    · rw [if_neg hn]
      simp [hn]

theorem fold_exts (xs : List Str) (X : Str → Bool) :
    xs.foldl (fun f n => put f n true) X = fun n => X n || xs.contains n := by
  induction xs generalizing X with
  | nil => simp
  | cons x xs ih =>
    rw [List.foldl_cons, ih]
    funext n
    unfold put
    by_cases hn : n = x
    · subst hn; simp
    · rw [if_neg hn]
      simp [hn]

/-- Statements on tables do not change the types. -/
theorem runs_other {uses : List Tok → List Key} {st : State} {sts : List PgText.Stmt} {db : Db}
    (h : PgSpec.Runs st.db sts db)
    (hs : ∀ s ∈ sts, tableNameFree st s ∧ ∀ ts ∈ stmtTexts s, ∀ k ∈ uses ts, st.known k) :
    Runs uses st (sts.map .other) { st with db := db } := by
  induction sts generalizing st with
  | nil =>
    have : st.db = db := h
    subst this
    rfl
  | cons s sts ih =>
    obtain ⟨h1, h2⟩ := hs s (by simp)
    refine ⟨⟨h.1, h1, h2⟩, ?_⟩
    refine ih (st := { st with db := PgSpec.effect st.db s }) h.2 fun x hx => ?_
    obtain ⟨h3, h4⟩ := hs x (by simp [hx])
    refine ⟨?_, h4⟩
    unfold tableNameFree at h3 ⊢
    split at h3
    · exact h3
    · trivial

theorem pg_runs_tail {db db' : Db} {a b : List PgText.Stmt} (h : PgSpec.Runs db (a ++ b) db') :
    PgSpec.Runs (a.foldl PgSpec.effect db) b db' := by
  induction a generalizing db with
  | nil => exact h
  | cons s a ih => exact ih h.2

/-! ## The statements of schema.sql -/

/-- CREATE SCHEMA. -/
def schemaSt (s : Schema) : Stmt := .other (pgStmt (.schema s.schemaName))

/-- CREATE TYPE. -/
def enumSt (s : Schema) (e : Enum) : Stmt := .enum (some s.schemaName, e.enumName) e.enumLabels

/-- CREATE DOMAIN. -/
def domSt (coll : Str) (s : Schema) (x : Domain) : Stmt :=
  .domain (some s.schemaName, x.domainName) (domOf coll x)

/-- A schema, its enums and its domains. -/
def block (coll : Str) (s : Schema) : List Stmt :=
  schemaSt s :: s.enums.map (enumSt s) ++ s.domains.map (domSt coll s)

section
variable (coll : Str)

theorem filterMap_none {α β γ : Type} (f : β → Option γ) (g : α → β) (xs : List α)
    (h : ∀ x, f (g x) = none) : (xs.map g).filterMap f = [] := by
  rw [List.filterMap_map, List.filterMap_eq_nil_iff]
  intro x _
  exact h x

theorem filterMap_some {α β γ : Type} (f : β → Option γ) (g : α → β) (k : α → γ) (xs : List α)
    (h : ∀ x, f (g x) = some (k x)) : (xs.map g).filterMap f = xs.map k := by
  rw [List.filterMap_map, ← List.filterMap_eq_map]
  congr 1
  funext x
  exact h x

theorem other_block (s : Schema) : otherIn (block coll s) = [pgStmt (.schema s.schemaName)] := by
  unfold otherIn block
  rw [List.filterMap_append, List.filterMap_cons, filterMap_none _ _ _ fun x => rfl,
    filterMap_none _ _ _ fun x => rfl]
  rfl

theorem ext_block (s : Schema) : extIn (block coll s) = [] := by
  unfold extIn block
  rw [List.filterMap_append, List.filterMap_cons, filterMap_none _ _ _ fun x => rfl,
    filterMap_none _ _ _ fun x => rfl]
  rfl

theorem enum_block (s : Schema) : enumIn (block coll s) = enumsIn s := by
  unfold enumIn block enumsIn
  rw [List.filterMap_append, List.filterMap_cons, filterMap_some _ (enumSt s)
      (fun e => ((s.schemaName, e.enumName), e.enumLabels)) _ fun x => rfl,
    filterMap_none _ _ _ fun x => rfl, List.append_nil]
  rfl

theorem dom_block (s : Schema) : domIn (block coll s) = domsIn coll s := by
  unfold domIn block domsIn
  rw [List.filterMap_append, List.filterMap_cons, filterMap_none _ _ _ fun x => rfl,
    filterMap_some _ (domSt coll s) (fun x => ((s.schemaName, x.domainName), domOf coll x)) _
      fun x => rfl]
  rfl

theorem other_blocks (ss : List Schema) : otherIn (ss.flatMap (block coll)) =
    (ss.map (·.schemaName)).map fun n => .base (.createSchema n) := by
  induction ss with
  | nil => rfl
  | cons s ss ih =>
    rw [List.flatMap_cons, otherIn, List.filterMap_append]
    show otherIn (block coll s) ++ otherIn (ss.flatMap (block coll)) = _
    rw [other_block, ih]
    rfl

theorem ext_blocks (ss : List Schema) : extIn (ss.flatMap (block coll)) = [] := by
  induction ss with
  | nil => rfl
  | cons s ss ih =>
    rw [List.flatMap_cons, extIn, List.filterMap_append]
    show extIn (block coll s) ++ extIn (ss.flatMap (block coll)) = _
    rw [ext_block, ih]
    rfl

theorem enum_blocks (ss : List Schema) : enumIn (ss.flatMap (block coll)) = ss.flatMap enumsIn := by
  induction ss with
  | nil => rfl
  | cons s ss ih =>
    rw [List.flatMap_cons, enumIn, List.filterMap_append, List.flatMap_cons]
    show enumIn (block coll s) ++ enumIn (ss.flatMap (block coll)) = _
    rw [enum_block, ih]

theorem dom_blocks (ss : List Schema) : domIn (ss.flatMap (block coll)) = ss.flatMap (domsIn coll) := by
  induction ss with
  | nil => rfl
  | cons s ss ih =>
    rw [List.flatMap_cons, domIn, List.filterMap_append, List.flatMap_cons]
    show domIn (block coll s) ++ domIn (ss.flatMap (block coll)) = _
    rw [dom_block, ih]

end

/-! ## The types are accepted -/

/-- Types have these names. -/
def keysIn (xs : List Stmt) : List Key :=
  xs.filterMap fun
    | .enum n _ => some (key n)
    | .domain n _ => some (key n)
    | _ => none

theorem keys_enum {xs : List Stmt} {k : Key} (h : k ∈ (enumIn xs).map (·.1)) : k ∈ keysIn xs := by
  obtain ⟨p, hp, rfl⟩ := List.mem_map.1 h
  obtain ⟨s, hs, e⟩ := List.mem_filterMap.1 hp
  refine List.mem_filterMap.2 ⟨s, hs, ?_⟩
  cases s <;> grind

theorem keys_dom {xs : List Stmt} {k : Key} (h : k ∈ (domIn xs).map (·.1)) : k ∈ keysIn xs := by
  obtain ⟨p, hp, rfl⟩ := List.mem_map.1 h
  obtain ⟨s, hs, e⟩ := List.mem_filterMap.1 hp
  refine List.mem_filterMap.2 ⟨s, hs, ?_⟩
  cases s <;> grind

/-- What is known after some statements that create only schemas and types. -/
theorem after {A : List Stmt} {E X : Str → Bool} {ns : List Str}
    (ho : otherIn A = ns.map fun n => .base (.createSchema n)) :
    (∀ n ∈ ns, (A.foldl effect (empty E X)).db.schema n = true) ∧
    (∀ k, k ∉ keysIn A → (A.foldl effect (empty E X)).free k) ∧
    (∀ k, k ∈ (enumIn A).map (·.1) ∨ k ∈ (domIn A).map (·.1) →
      (A.foldl effect (empty E X)).known k) := by
  rw [fold_effect, ho]
  refine ⟨?_, ?_, ?_⟩
  · intro n hn
    show (((ns.map fun n => PgText.Stmt.base (.createSchema n)).foldl PgSpec.effect
      (DumpSpec.empty E)).schema n) = true
    rw [fold_schemas]
    simp [DumpSpec.empty, hn]
  · intro k hk
    refine ⟨?_, ?_, ?_⟩
    · exact puts_other fun h => hk (keys_enum h)
    · exact puts_other fun h => hk (keys_dom h)
    · show (((ns.map fun n => PgText.Stmt.base (.createSchema n)).foldl PgSpec.effect
        (DumpSpec.empty E)).table k) = none
      rw [fold_schemas]
      rfl
  · intro k hk
    rcases hk with hk | hk
    · exact .inl (puts_some (.inl hk))
    · exact .inr (puts_some (.inl hk))

theorem checks_sublist (es ns : List Str) : ((es.mapIdx fun i e =>
    (ns[i]?.filter (· ≠ []), exprToks .postgres e)).filterMap (·.1)).Sublist (ns.filter (· ≠ [])) := by
  induction es generalizing ns with
  | nil => simp
  | cons e es ih =>
    rw [List.mapIdx_cons, List.filterMap_cons]
    cases ns with
    | nil => simpa using ih []
    | cons n ns =>
      have := ih ns
      by_cases hn : n = []
      · subst hn
        have e1 : ([] :: ns : List Str).filter (fun x => decide (x ≠ [])) =
            ns.filter (fun x => decide (x ≠ [])) := by simp
        have e2 : Option.filter (fun x : Str => decide (x ≠ [])) ([] :: ns)[0]? = none := by
          simp [Option.filter]
        simp only [e1, e2, List.getElem?_cons_succ]
        exact this
      · have e1 : (n :: ns).filter (fun x => decide (x ≠ [])) = n :: ns.filter (fun x => decide (x ≠ [])) := by
          rw [List.filter_cons, if_pos (by simpa using hn)]
        have e2 : Option.filter (fun x : Str => decide (x ≠ [])) (n :: ns)[0]? = some n := by
          simp [Option.filter, hn]
        simp only [e1, e2, List.getElem?_cons_succ]
        exact this.cons_cons n

theorem checks_nodup {coll : Str} {x : Domain} (h : DomainOk x) :
    ((domOf coll x).checks.filterMap (·.1)).Nodup :=
  h.nodup.sublist (checks_sublist _ _)

/-- Everything before the tables. -/
def types (c : Catalog) : List Stmt :=
  c.extensions.map .extension ++ c.schemas.flatMap (block c.defaultCollation)

theorem other_append (a b : List Stmt) : otherIn (a ++ b) = otherIn a ++ otherIn b :=
  List.filterMap_append ..

theorem other_types (c : Catalog) : otherIn (types c) =
    (c.schemas.map (·.schemaName)).map fun n => .base (.createSchema n) := by
  rw [types, other_append, other_blocks]
  have : otherIn (c.extensions.map .extension) = [] := filterMap_none _ _ _ fun x => rfl
  rw [this]
  rfl

theorem ext_types (c : Catalog) : extIn (types c) = c.extensions := by
  rw [types, extIn, List.filterMap_append]
  show extIn (c.extensions.map .extension) ++ extIn (c.schemas.flatMap (block c.defaultCollation)) = _
  have : extIn (c.extensions.map .extension) = c.extensions.map id := filterMap_some _ _ _ _ fun x => rfl
  rw [this, ext_blocks, List.map_id, List.append_nil]

theorem enum_types (c : Catalog) : enumIn (types c) = c.schemas.flatMap enumsIn := by
  rw [types, enumIn, List.filterMap_append]
  show enumIn (c.extensions.map .extension) ++ enumIn (c.schemas.flatMap (block c.defaultCollation)) = _
  have : enumIn (c.extensions.map .extension) = [] := filterMap_none _ _ _ fun x => rfl
  rw [this, enum_blocks]
  rfl

theorem dom_types (c : Catalog) :
    domIn (types c) = c.schemas.flatMap (domsIn c.defaultCollation) := by
  rw [types, domIn, List.filterMap_append]
  show domIn (c.extensions.map .extension) ++ domIn (c.schemas.flatMap (block c.defaultCollation)) = _
  have : domIn (c.extensions.map .extension) = [] := filterMap_none _ _ _ fun x => rfl
  rw [this, dom_blocks]
  rfl

theorem keys_types (c : Catalog) : keysIn (types c) = c.schemas.flatMap fun s =>
    (enumsIn s).map (·.1) ++ (domsIn c.defaultCollation s).map (·.1) := by
  rw [types, keysIn, List.filterMap_append]
  rw [filterMap_none _ _ _ fun x => rfl, List.nil_append]
  generalize c.schemas = ss
  induction ss with
  | nil => rfl
  | cons s ss ih =>
    rw [List.flatMap_cons, List.filterMap_append, ih, List.flatMap_cons]
    congr 1
    unfold block enumsIn domsIn
    rw [List.filterMap_append, List.filterMap_cons,
      filterMap_some _ (enumSt s) (fun e => (s.schemaName, e.enumName)) _ fun x => rfl,
      filterMap_some _ (domSt c.defaultCollation s) (fun x => (s.schemaName, x.domainName)) _ fun x => rfl,
      List.map_map, List.map_map]
    rfl

section
variable {uses : List Tok → List Key} {c : Catalog} (h : TypesOk uses c)

include h in
/-- A type that is created next can be created, and types that were created are known. -/
theorem next {E X : Str → Bool} {A R : List Stmt} {st : Stmt} {k : Key} {s : Schema}
    (e : types c = A ++ st :: R) (hk : keysIn [st] = [k]) (hs : schemaSt s ∈ A) :
    (A.foldl effect (empty E X)).db.schema s.schemaName = true ∧
    (A.foldl effect (empty E X)).free k ∧
    (∀ j, j ∈ (enumIn A).map (·.1) ∨ j ∈ (domIn A).map (·.1) →
      (A.foldl effect (empty E X)).known j) := by
  have ho := other_types c
  rw [e, other_append] at ho
  obtain ⟨n1, n2, _, h1, _⟩ := List.append_eq_map_iff.1 ho
  obtain ⟨h2, h3, h4⟩ := after (E := E) (X := X) h1.symm
  refine ⟨h2 _ ?_, h3 _ ?_, h4⟩
  · have : pgStmt (.schema s.schemaName) ∈ otherIn A := List.mem_filterMap.2 ⟨_, hs, rfl⟩
    rw [← h1] at this
    obtain ⟨n, hn, e⟩ := List.mem_map.1 this
    cases e
    exact hn
  · have := h.names
    rw [← keys_types, e] at this
    have := (List.nodup_append.1 this).1
    rw [show A ++ st :: R = A ++ ([st] ++ R) by simp, keysIn, List.filterMap_append,
      List.filterMap_append] at this
    rw [show List.filterMap _ [st] = [k] from hk] at this
    intro hm
    exact (List.nodup_append.1 this).2.2 k hm k (by simp) rfl

include h in
/-- The schemas, enums and domains. -/
theorem blocks_run (E X : Str → Bool) (a b : List Schema) (e : c.schemas = a ++ b) :
    Runs uses ((c.extensions.map Stmt.extension ++ a.flatMap (block c.defaultCollation)).foldl effect
        (empty E X))
      (b.flatMap (block c.defaultCollation)) ((types c).foldl effect (empty E X)) := by
  induction b generalizing a with
  | nil =>
    rw [types, e, List.append_nil]
    exact rfl
  | cons s b ih =>
    rw [List.flatMap_cons]
    generalize hA : c.extensions.map Stmt.extension ++ a.flatMap (block c.defaultCollation) = A
    have ht : types c = A ++ (schemaSt s :: s.enums.map (enumSt s) ++
        s.domains.map (domSt c.defaultCollation s)) ++ b.flatMap (block c.defaultCollation) := by
      rw [types, e, ← hA]
      simp [block]
    have r1 := runs_map (uses := uses) (st := empty E X) A [s] schemaSt (by
      intro p x q _
      exact ⟨trivial, trivial, by intro ts hts; cases hts⟩)
    have r2 := runs_map (uses := uses) (st := empty E X) (A ++ [schemaSt s]) s.enums (enumSt s) (by
      intro p x q ep
      obtain ⟨h1, h2, _⟩ := next h (E := E) (X := X) (A := A ++ [schemaSt s] ++ p.map (enumSt s))
        (R := q.map (enumSt s) ++ s.domains.map (domSt c.defaultCollation s) ++
          b.flatMap (block c.defaultCollation)) (st := enumSt s x) (s := s)
        (by rw [ht, ep]; simp) rfl (by simp)
      exact ⟨h1, h2, (h.enums s (by rw [e]; simp) x (by rw [ep]; simp)).nodup⟩)
    have r3 := runs_map (uses := uses) (st := empty E X) (A ++ [schemaSt s] ++ s.enums.map (enumSt s))
      s.domains (domSt c.defaultCollation s) (by
      intro p x q ep
      obtain ⟨h1, h2, h3⟩ := next h (E := E) (X := X)
        (A := A ++ [schemaSt s] ++ s.enums.map (enumSt s) ++ p.map (domSt c.defaultCollation s))
        (R := q.map (domSt c.defaultCollation s) ++
          b.flatMap (block c.defaultCollation)) (st := domSt c.defaultCollation s x) (s := s)
        (by rw [ht, ep]; simp) rfl (by simp)
      refine ⟨h1, h2, ?_, ?_⟩
      · intro ts hts k hk
        refine h3 k ?_
        rcases h.order a s b e p x q ep ts hts k hk with hm | hm | ⟨y, hy, rfl⟩
        · left
          rw [← hA]
          simp only [enumIn, List.filterMap_append, List.map_append, List.mem_append]
          rw [List.flatMap_append, List.mem_append] at hm
          rcases hm with hm | hm
          · left; left; left; right
            have := enum_blocks c.defaultCollation a
            unfold enumIn at this
            rw [this, List.map_flatMap]
            exact hm
          · left; right
            rw [filterMap_some _ (enumSt s) (fun e => ((s.schemaName, e.enumName), e.enumLabels)) _
              fun x => rfl]
            simpa [enumsIn] using hm
        · right
          rw [← hA]
          simp only [domIn, List.filterMap_append, List.map_append, List.mem_append]
          left; left; left; right
          have := dom_blocks c.defaultCollation a
          unfold domIn at this
          rw [this, List.map_flatMap]
          exact hm
        · right
          simp only [domIn, List.filterMap_append, List.map_append, List.mem_append]
          right
          rw [filterMap_some _ (domSt c.defaultCollation s)
            (fun x => ((s.schemaName, x.domainName), domOf c.defaultCollation x)) _ fun x => rfl,
            List.map_map]
          exact List.mem_map.2 ⟨y, hy, rfl⟩
      · have hd := h.domains s (by rw [e]; simp) x (by rw [ep]; simp)
        exact checks_nodup hd)
    refine Runs.append (mid := ((A ++ [schemaSt s] ++ s.enums.map (enumSt s)) ++
      s.domains.map (domSt c.defaultCollation s)).foldl effect (empty E X)) ?_ ?_
    · exact Runs.append (Runs.append (a := [schemaSt s]) r1 r2) r3
    · have := ih (a ++ [s]) (by rw [e]; simp)
      rw [List.flatMap_append, List.flatMap_singleton, ← List.append_assoc, hA] at this
      simpa [block] using this

include h in
theorem types_run (E X : Str → Bool) :
    Runs uses (empty E X) (types c) ((types c).foldl effect (empty E X)) := by
  have r1 := runs_map (uses := uses) (st := empty E X) [] c.extensions .extension
    (by intro p x q _; trivial)
  have r2 := blocks_run h E X [] c.schemas rfl
  rw [List.flatMap_nil, List.append_nil] at r2
  exact Runs.append r1 r2

include h in
/-- The types that are there after them. -/
theorem types_state (E X : Str → Bool) : (types c).foldl effect (empty E X) =
    ⟨((c.schemas.map (·.schemaName)).map fun n => .base (.createSchema n)).foldl PgSpec.effect
        (DumpSpec.empty E), fun n => X n || c.extensions.contains n, look (c.schemas.flatMap enumsIn),
      look (c.schemas.flatMap (domsIn c.defaultCollation))⟩ := by
  have hn := (List.nodup_append.1 h.names).1
  rw [fold_effect, other_types, ext_types, enum_types, dom_types]
  have e1 : puts (fun _ => none) (c.schemas.flatMap enumsIn) = look (c.schemas.flatMap enumsIn) := by
    funext k
    rw [puts_look ?_ (fun _ _ => rfl), Option.or_none]
    rw [List.map_flatMap]
    refine hn.sublist ?_
    generalize c.schemas = ss
    induction ss with
    | nil => simp
    | cons s ss ih => 
      rw [List.flatMap_cons, List.flatMap_cons]
      exact List.Sublist.append (List.sublist_append_left _ _) ih
  have e2 : puts (fun _ => none) (c.schemas.flatMap (domsIn c.defaultCollation)) =
      look (c.schemas.flatMap (domsIn c.defaultCollation)) := by
    funext k
    rw [puts_look ?_ (fun _ _ => rfl), Option.or_none]
    rw [List.map_flatMap]
    refine hn.sublist ?_
    generalize c.schemas = ss
    induction ss with
    | nil => simp
    | cons s ss ih => 
      rw [List.flatMap_cons, List.flatMap_cons]
      exact List.Sublist.append (List.sublist_append_right _ _) ih
  show State.mk _ _ (puts (fun _ => none) _) (puts (fun _ => none) _) = _
  rw [e1, e2]
  congr 1
  exact fold_exts ..

end

/-- C98 (partial: see DESIGN.md): the three files of a Postgres dump are read as statements that an
empty database accepts one after the other, and the result is the database that was dumped, with its
extensions, enums and domains. -/
theorem pg_dump_load_types_partial {c : Catalog} {uses : List Tok → List Key}
    (h : Dumpable .postgres (keywords .postgres) (PlainName .postgres) c) (hty : TypesOk uses c)
    (ho : Ordered .postgres (keywords .postgres) c)
    (hG : PgSpec.Consistent (DumpSpec.dbOf .postgres (keywords .postgres) c))
    (hn : KeysNotNull (DumpSpec.dbOf .postgres (keywords .postgres) c))
    (ha : ∀ s ∈ c.schemas, ∀ t ∈ s.tables, ∀ x ∈ t.columns,
      PgSpec.addable (colOf .postgres c.defaultCollation false x) = true) (E X : Str → Bool) :
    ∃ s1 s2 s3,
      runScript (keywords .postgres) c.currentSchema (Dump.dumpSchema .postgres c) = some s1 ∧
      runScript (keywords .postgres) c.currentSchema (Dump.dumpIndexes .postgres c) = some s2 ∧
      runScript (keywords .postgres) c.currentSchema (Dump.dumpConstraints .postgres c) = some s3 ∧
      Runs uses (empty E X) (s1 ++ s2 ++ s3) (withMore E X (stateOf (keywords .postgres) c)) := by
  refine ⟨_, _, _, (schema_script_types (scripts c.currentSchema) (fun m => .other (pgStmt m)) h
    .extension enumSt (domSt c.defaultCollation) ?_ ?_ ?_ ?_ ?_).run,
    (isScript_other (pg_index_script h)).run, (isScript_other (pg_constraint_script h)).run, ?_⟩
  · intro e he
    exact createExtension_script (hty.extensions e he)
  · intro s hs
    obtain ⟨h1, h2⟩ := pg_schema_script h hs
    exact ⟨h1, isScript_other h2⟩
  · intro s hs e he
    exact createEnum_script (h.schemas s hs).2.1 (h.schemas s hs).2.2 (hty.enums s hs e he)
  · intro s hs x hx
    exact createDomain_script (h.schemas s hs).2.1 (h.schemas s hs).2.2 (hty.domains s hs x hx)
  · intro s hs t ht
    obtain ⟨h1, h2⟩ := pg_table_script h hs ht
    exact ⟨h1, isScript_other h2⟩
  · have r1 := types_run hty E X
    have r2 := pg_all_run h ho hG hn ha E
    rw [List.map_append] at r2
    have r2 := pg_runs_tail r2
    rw [types_state hty] at r1
    have es : (schemaMakes c).map pgStmt =
        (c.schemas.map (·.schemaName)).map fun n => .base (.createSchema n) := by
      unfold schemaMakes
      rw [List.map_map, List.map_map]
      rfl
    rw [es] at r2
    have r3 := runs_other (uses := uses) (st := ⟨_, fun n => X n || c.extensions.contains n,
      look (c.schemas.flatMap enumsIn), look (c.schemas.flatMap (domsIn c.defaultCollation))⟩) r2 ?_
    · have := Runs.append r1 r3
      rw [types, List.map_append, List.map_append, List.map_append, List.map_append, List.map_map,
        ← List.append_assoc, ← List.append_assoc] at this
      exact this
    · intro m' hm'
      obtain ⟨m, hm, rfl⟩ := List.mem_map.1 hm'
      rcases List.mem_append.1 hm with hm | hm
      · obtain ⟨s, hs, t, ht, rfl⟩ := mem_tableMakes hm
        have hmem : t ∈ DumpSpec.tables c := List.mem_flatMap.2 ⟨s, hs, ht⟩
        have hdis := (List.nodup_append.1 hty.names).2.2
        have hkt : ∀ k, k ∈ (c.schemas.flatMap fun s => (enumsIn s).map (·.1) ++
            (domsIn c.defaultCollation s).map (·.1)) → (t.tableSchema, t.tableName) ≠ k := by
          intro k hk e
          exact hdis k hk _ (List.mem_map.2 ⟨t, hmem, rfl⟩) e.symm
        refine ⟨⟨?_, ?_⟩, ?_⟩
        · rw [(table_name h hs ht).2]
          refine look_none fun hk => hkt _ ?_ rfl
          rw [List.map_flatMap] at hk
          obtain ⟨s, hs, hk⟩ := List.mem_flatMap.1 hk
          exact List.mem_flatMap.2 ⟨s, hs, List.mem_append_left _ hk⟩
        · rw [(table_name h hs ht).2]
          refine look_none fun hk => hkt _ ?_ rfl
          rw [List.map_flatMap] at hk
          obtain ⟨s, hs, hk⟩ := List.mem_flatMap.1 hk
          exact List.mem_flatMap.2 ⟨s, hs, List.mem_append_right _ hk⟩
        · intro ts hts k hk
          obtain ⟨i, hi, hts⟩ := List.mem_flatMap.1 hts
          unfold itemsOf at hi
          rcases List.mem_append.1 hi with hi | hi
          · obtain ⟨y, hy, rfl⟩ := List.mem_map.1 hi
            obtain ⟨x, hx, rfl⟩ := List.mem_map.1 hy
            obtain ⟨s', hs', hk⟩ := hty.columns t hmem x hx ts hts k hk
            rcases hk with hk | hk
            · left
              refine look_some ?_
              rw [List.map_flatMap]
              exact List.mem_flatMap.2 ⟨s', hs', hk⟩
            · right
              refine look_some ?_
              rw [List.map_flatMap]
              exact List.mem_flatMap.2 ⟨s', hs', hk⟩
          · obtain ⟨y, _, rfl⟩ := List.mem_map.1 hi
            cases hts
      · rcases List.mem_append.1 hm with hm | hm
        · obtain ⟨s, _, t, _, x, _, y, _, rfl⟩ := mem_indexMakes hm
          exact ⟨trivial, by intro ts hts; cases hts⟩
        · obtain ⟨s, _, t, x, ⟨_, _, rfl⟩, _⟩ := mem_conMakes hm
          exact ⟨trivial, by intro ts hts; cases hts⟩

end PgTypes
