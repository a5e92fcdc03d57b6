import Verif.Lemmas.StructRead
import Verif.Lemmas.Cache

/-!
# The struct of a table in terms of its keys and indexes
-/

namespace Sqddl.Structs
open Go StructSpec

/-! ## Lists of names as text -/

theorem splitComma_plain {s : Str} (h : ',' ∉ s) : splitComma s = [s] := by
  induction s with
  | nil => rfl
  | cons c s ih =>
    rw [List.mem_cons, not_or] at h
    rw [splitComma, if_neg (fun e => h.1 e.symm), ih h.2]

theorem splitComma_append {s r : Str} (h : ',' ∉ s) :
    splitComma (s ++ ',' :: r) = s :: splitComma r := by
  induction s with
  | nil => simp [splitComma]
  | cons c s ih =>
    rw [List.mem_cons, not_or] at h
    rw [List.cons_append, splitComma, if_neg (fun e => h.1 e.symm), ih h.2]

theorem splitComma_join {l : List Str} (hl : l ≠ []) (h : ∀ s ∈ l, ',' ∉ s) :
    splitComma (join b!"," l) = l := by
  induction l with
  | nil => exact absurd rfl hl
  | cons a l ih =>
    cases l with
    | nil => exact splitComma_plain (h a (by simp))
    | cons b l =>
      have h1 := ih (by simp) (fun s hs => h s (by simp [hs]))
      rw [join]
      rw [show a ++ [','] ++ join [','] (b :: l) = a ++ ',' :: join [','] (b :: l) by simp]
      rw [splitComma_append (h a (by simp)), h1]

theorem join_inj {l l' : List Str} (hl : l ≠ []) (hl' : l' ≠ []) (h : ∀ s ∈ l, ',' ∉ s)
    (h' : ∀ s ∈ l', ',' ∉ s) (e : join b!"," l = join b!"," l') : l = l' := by
  rw [← splitComma_join hl h, e, splitComma_join hl' h']

theorem join_eq_name {l : List Str} (hl : l ≠ []) (h : ∀ s ∈ l, ',' ∉ s) {n : Str} (hn : ',' ∉ n) :
    join b!"," l = n ↔ l = [n] := by
  constructor
  · intro e
    have : join b!"," [n] = n := rfl
    exact join_inj hl (by simp) h (by simpa using hn) (by rw [e, this])
  · rintro rfl; rfl

/-- A character of the names that structs can use. -/
def nameChar (c : Char) : Bool :=
  c == ' ' || c == '_' || isDigit c || ('a' ≤ c && c ≤ 'z') || ('A' ≤ c && c ≤ 'Z')

theorem goName_char {s : Str} (h : GoName s) {c : Char} (hc : c ∈ s) : nameChar c = true := by
  have := h.2.2.2.2 c hc
  simp only [nameChar, Bool.or_eq_true, beq_iff_eq, Bool.and_eq_true, decide_eq_true_eq]
  grind

theorem goName_not {s : Str} (h : GoName s) {c : Char} (hc : nameChar c = false) : c ∉ s := by
  intro hm; rw [goName_char h hm] at hc; simp at hc

theorem goName_comma {s : Str} (h : GoName s) : ',' ∉ s := goName_not h (by decide)

/-! ## Modifiers of keys -/

/-- The name of the modifier of a kind of constraint. -/
def kindName (type : Str) : Str :=
  if type = PRIMARY_KEY then b!"primarykey" else if type = UNIQUE then b!"unique" else b!"foreignkey"

/-- The submodifiers of a constraint. -/
def keySubs (cur : Str) (k : Constraint) : List Modifier :=
  if k.constraintType = FOREIGN_KEY then
    raw b!"references" (referencesText cur k) :: ruleModifier b!"onupdate" k.updateRule ++
      ruleModifier b!"ondelete" k.deleteRule ++ deferModifier k
  else deferModifier k

/-- The modifier of a key. -/
def keyMod (cur : Str) (k : Constraint) : Modifier :=
  .mk [] (kindName k.constraintType) [] (join b!"," k.columns) (keySubs cur k)

theorem constraintModifier_eq (cur : Str) (k : Constraint) :
    constraintModifier cur k = if isKeyOrRef k then some (keyMod cur k) else none := by
  have e1 : ¬ UNIQUE = PRIMARY_KEY := by decide
  have e2 : ¬ FOREIGN_KEY = PRIMARY_KEY := by decide
  have e3 : ¬ FOREIGN_KEY = UNIQUE := by decide
  have e4 : ¬ PRIMARY_KEY = FOREIGN_KEY := by decide
  have e5 : ¬ UNIQUE = FOREIGN_KEY := by decide
  unfold constraintModifier isKeyOrRef keyMod kindName keySubs
  by_cases h1 : k.constraintType = PRIMARY_KEY
  · rw [h1]; simp [e4]
  · by_cases h2 : k.constraintType = UNIQUE
    · rw [h2]; simp [e1, e5]
    · by_cases h3 : k.constraintType = FOREIGN_KEY
      · rw [h3]; simp [e2, e3]
      · simp [h1, h2, h3]

theorem keyModifiers_eq {t : Table} (h : ∀ k ∈ t.constraints, k.ignore = false) (cur : Str) :
    keyModifiers cur t = (keysOf t).map (keyMod cur) := by
  unfold keyModifiers keysOf
  rw [List.filter_eq_self.2 (by intro k hk; simp [h k hk])]
  induction t.constraints with
  | nil => rfl
  | cons k l ih =>
    rw [List.filterMap_cons, constraintModifier_eq, List.filter_cons]
    cases isKeyOrRef k
    · simpa using ih
    · simpa using ih

theorem kindName_inj {a b : Str} (ha : a = PRIMARY_KEY ∨ a = UNIQUE ∨ a = FOREIGN_KEY)
    (hb : b = PRIMARY_KEY ∨ b = UNIQUE ∨ b = FOREIGN_KEY) (e : kindName a = kindName b) : a = b := by
  rcases ha with rfl | rfl | rfl <;> rcases hb with rfl | rfl | rfl <;> first | rfl | (revert e; decide)

theorem isKeyOrRef_iff (k : Constraint) : isKeyOrRef k = true ↔
    k.constraintType = PRIMARY_KEY ∨ k.constraintType = UNIQUE ∨ k.constraintType = FOREIGN_KEY := by
  simp [isKeyOrRef, or_assoc]

theorem mem_keysOf {t : Table} {k : Constraint} : k ∈ keysOf t ↔
    k ∈ t.constraints ∧
      (k.constraintType = PRIMARY_KEY ∨ k.constraintType = UNIQUE ∨ k.constraintType = FOREIGN_KEY) := by
  rw [keysOf, List.mem_filter, isKeyOrRef_iff]

theorem getElem?_nodup_inj {α β : Type} {f : α → β} {l : List α} (h : (l.map f).Nodup) {i j : Nat}
    {a b : α} (hi : l[i]? = some a) (hj : l[j]? = some b) (e : f a = f b) : i = j := by
  obtain ⟨h1, h1'⟩ := List.getElem?_eq_some_iff.1 hi
  obtain ⟨h2, h2'⟩ := List.getElem?_eq_some_iff.1 hj
  refine (List.getElem_inj (xs := l.map f) (h₀ := by simpa using h1) (h₁ := by simpa using h2) h).1 ?_
  simp [h1', h2', e]

section
variable {isFloat : Str → Bool} {d : Dialect} {cat : Catalog} {t : Table}
variable (hf : TableFits isFloat d cat t) (hok : CatalogSpec.TableOk t)
include hf

theorem columnName_go {n : Str} (h : n ∈ t.columns.map (·.columnName)) : GoName n := by
  obtain ⟨c, hc, rfl⟩ := List.mem_map.1 h
  exact (hf.columns c hc).name

theorem keyColumns_go {k : Constraint} (h : k ∈ keysOf t) : k.columns ≠ [] ∧ ∀ n ∈ k.columns, GoName n :=
  ⟨(hf.keys k h).columns.1, fun n hn => columnName_go hf ((hf.keys k h).columns.2 n hn)⟩

theorem indexColumns_go {x : Index} (h : x ∈ t.indexes) : x.columns ≠ [] ∧ ∀ n ∈ x.columns, GoName n :=
  ⟨(hf.indexes x h).columns.1, fun n hn => columnName_go hf ((hf.indexes x h).columns.2 n hn)⟩

theorem keyColumns_comma {k : Constraint} (h : k ∈ keysOf t) : ∀ n ∈ k.columns, ',' ∉ n :=
  fun n hn => goName_comma ((keyColumns_go hf h).2 n hn)

theorem indexColumns_comma {x : Index} (h : x ∈ t.indexes) : ∀ n ∈ x.columns, ',' ∉ n :=
  fun n hn => goName_comma ((indexColumns_go hf h).2 n hn)

/-- Keys of the same kind on the same columns have the same name. -/
theorem key_name_eq {k l : Constraint} (hk : k ∈ keysOf t) (hl : l ∈ keysOf t)
    (e1 : k.constraintType = l.constraintType) (e2 : k.columns = l.columns) :
    k.constraintName = l.constraintName := by
  rw [(hf.keys k hk).name, (hf.keys l hl).name, e1, e2]

omit hf in
include hok in
theorem keysOf_nodup : ((keysOf t).map (·.constraintName)).Nodup :=
  hok.constraints.sublist (List.filter_sublist.map _)

include hok in
theorem keyMods_distinct : Distinct ((keysOf t).map (keyMod cat.currentSchema)) := by
  constructor
  · intro n v i j a b hi hj ha hb
    rw [List.getElem?_map, Option.map_eq_some_iff] at hi hj
    obtain ⟨k, hi, rfl⟩ := hi
    obtain ⟨l, hj, rfl⟩ := hj
    simp only [keyMod, Modifier.name, Modifier.value, Bool.and_eq_true, beq_iff_eq] at ha hb
    have hk := List.mem_of_getElem? hi
    have hl := List.mem_of_getElem? hj
    refine getElem?_nodup_inj (keysOf_nodup hok) hi hj (key_name_eq hf hk hl ?_ ?_)
    · exact kindName_inj (mem_keysOf.1 hk).2 (mem_keysOf.1 hl).2 (by rw [ha.1, hb.1])
    · exact join_inj (keyColumns_go hf hk).1 (keyColumns_go hf hl).1 (keyColumns_comma hf hk)
        (keyColumns_comma hf hl) (by rw [ha.2, hb.2])
  · intro i j a b hi hj ha hb
    rw [List.getElem?_map, Option.map_eq_some_iff] at hi hj
    obtain ⟨k, hi, rfl⟩ := hi
    obtain ⟨l, hj, rfl⟩ := hj
    simp only [keyMod, Modifier.name, beq_iff_eq] at ha hb
    have hk := List.mem_of_getElem? hi
    have hl := List.mem_of_getElem? hj
    have e0 : kindName PRIMARY_KEY = b!"primarykey" := rfl
    have e1 := kindName_inj (mem_keysOf.1 hk).2 (Or.inl rfl) (ha.trans e0.symm)
    have e2 := kindName_inj (mem_keysOf.1 hl).2 (Or.inl rfl) (hb.trans e0.symm)
    have := hf.onePkey k (mem_keysOf.1 hk).1 l (mem_keysOf.1 hl).1 e1 e2
    exact getElem?_nodup_inj (keysOf_nodup hok) hi hj (by rw [this])

theorem indexModifiers_eq : indexModifiers t = t.indexes.map indexModifier := by
  unfold indexModifiers
  rw [List.filter_eq_self.2]
  intro x hx
  simp [(hf.indexes x hx).live, (hf.indexes x hx).simple]

include hok in
theorem indexMods_distinct : Distinct (t.indexes.map indexModifier) := by
  constructor
  · intro n v i j a b hi hj ha hb
    rw [List.getElem?_map, Option.map_eq_some_iff] at hi hj
    obtain ⟨k, hi, rfl⟩ := hi
    obtain ⟨l, hj, rfl⟩ := hj
    simp only [indexModifier, Modifier.name, Modifier.value, Bool.and_eq_true, beq_iff_eq] at ha hb
    have hk := List.mem_of_getElem? hi
    have hl := List.mem_of_getElem? hj
    refine getElem?_nodup_inj hok.indexes hi hj ?_
    have e := join_inj (indexColumns_go hf hk).1 (indexColumns_go hf hl).1 (indexColumns_comma hf hk)
        (indexColumns_comma hf hl) (by rw [ha.2, hb.2])
    rw [(hf.indexes k hk).name, (hf.indexes l hl).name, e]
  · intro i j a b hi hj ha hb
    rw [List.getElem?_map, Option.map_eq_some_iff] at hi
    obtain ⟨k, hi, rfl⟩ := hi
    simp [indexModifier, Modifier.name] at ha

/-- A key with the indexes on the columns of a foreign key. -/
def fullMod (cur : Str) (X : List Index) (k : Constraint) : Modifier :=
  addIndexes (X.map indexModifier) (keyMod cur k)

omit hf in
theorem fullMod_name (cur : Str) (X : List Index) (k : Constraint) :
    (fullMod cur X k).name = kindName k.constraintType := addIndexes_name _ _

omit hf in
theorem fullMod_value (cur : Str) (X : List Index) (k : Constraint) :
    (fullMod cur X k).value = join b!"," k.columns := addIndexes_value _ _

/-- The modifiers of the keys, with those of the indexes. -/
def keyMods (cat : Catalog) (t : Table) : List Modifier :=
  (keysOf t).map (fullMod cat.currentSchema t.indexes)

include hok in
theorem withIndexes_keys :
    withIndexes (keyModifiers cat.currentSchema t) (indexModifiers t) = keyMods cat t := by
  rw [keyModifiers_eq hf.constraintsLive, indexModifiers_eq hf,
    withIndexes_eq (keyMods_distinct hf hok), List.map_map]
  rfl

include hok in
theorem fullMods_distinct : Distinct (keyMods cat t) := by
  have := (keyMods_distinct hf hok).map (t.indexes.map indexModifier)
  rwa [List.map_map] at this

/-- The keys of a kind on one column. -/
def keysOn (t : Table) (type n : Str) : List Constraint :=
  (keysOf t).filter fun k => k.constraintType == type && k.columns == [n]

theorem filter_fullMods {type n : Str} (ht : type = PRIMARY_KEY ∨ type = UNIQUE ∨ type = FOREIGN_KEY)
    (hn : GoName n) :
    (keyMods cat t).filter (fun m => m.name == kindName type && m.value == n) =
      (keysOn t type n).map (fullMod cat.currentSchema t.indexes) := by
  unfold keyMods keysOn
  rw [List.filter_map]
  congr 1
  refine List.filter_congr fun k hk => ?_
  simp only [Function.comp_apply, fullMod_name, fullMod_value]
  congr 1
  · rw [Bool.eq_iff_iff, beq_iff_eq, beq_iff_eq]
    exact ⟨fun e => kindName_inj (mem_keysOf.1 hk).2 ht e, fun e => by rw [e]⟩
  · rw [Bool.eq_iff_iff, beq_iff_eq, beq_iff_eq]
    exact join_eq_name (keyColumns_go hf hk).1 (keyColumns_comma hf hk) (goName_comma hn)

include hok in
theorem keyAt_unique {n : Str} (hn : GoName n) :
    atPos (keyMods cat t) (keyPos (keyMods cat t) b!"unique" n) =
      (keysOn t UNIQUE n).map (fullMod cat.currentSchema t.indexes) := by
  rw [keyAt_eq (fullMods_distinct hf hok)]
  exact filter_fullMods hf (type := UNIQUE) (by simp) hn

include hok in
theorem keyAt_fkey {n : Str} (hn : GoName n) :
    atPos (keyMods cat t) (keyPos (keyMods cat t) b!"foreignkey" n) =
      (keysOn t FOREIGN_KEY n).map (fullMod cat.currentSchema t.indexes) := by
  rw [keyAt_eq (fullMods_distinct hf hok)]
  exact filter_fullMods hf (type := FOREIGN_KEY) (by simp) hn

include hok in
theorem pkeyAt {n : Str} (hn : GoName n) :
    (atPos (keyMods cat t) (pkeyPos (keyMods cat t))).filter (fun m => m.value == n) =
      (keysOn t PRIMARY_KEY n).map (fullMod cat.currentSchema t.indexes) := by
  rw [pkeyAt_eq (fullMods_distinct hf hok), List.filter_filter]
  rw [← filter_fullMods hf (type := PRIMARY_KEY) (by simp) hn]
  refine List.filter_congr fun m _ => ?_
  rw [Bool.and_comm]; rfl

theorem fkeyPos_none {n : Str} (hn : GoName n) :
    keyPos (keyMods cat t) b!"foreignkey" n = none ↔ keysOn t FOREIGN_KEY n = [] := by
  rw [keyPos_eq, lastPos_none]
  have h := filter_fullMods hf (type := FOREIGN_KEY) (by simp) hn
  rw [← List.map_eq_nil_iff (f := fullMod cat.currentSchema t.indexes), ← h, List.filter_eq_nil_iff]
  refine forall_congr' fun m => ?_
  rw [Bool.not_eq_true]; rfl

include hok in
theorem indexAt {n : Str} (hn : GoName n) :
    atPos (indexModifiers t) (keyPos (indexModifiers t) b!"index" n) =
      (t.indexes.filter fun x => x.columns == [n]).map indexModifier := by
  rw [indexModifiers_eq hf, keyAt_eq (indexMods_distinct hf hok), List.filter_map]
  congr 1
  refine List.filter_congr fun x hx => ?_
  simp only [Function.comp_apply, indexModifier, Modifier.name, Modifier.value]
  rw [Bool.eq_iff_iff]
  simp only [beq_self_eq_true, Bool.true_and, beq_iff_eq]
  exact join_eq_name (indexColumns_go hf hx).1 (indexColumns_comma hf hx) (goName_comma hn)

theorem contains_value {l : List Str} (hl : l ≠ []) (h : ∀ n ∈ l, n ∈ t.columns.map (·.columnName)) :
    (t.columns.map (·.columnName)).contains (join b!"," l) = (l.length == 1) := by
  have hgo : ∀ n ∈ l, ',' ∉ n := fun n hn => goName_comma (columnName_go hf (h n hn))
  rw [Bool.eq_iff_iff, List.contains_iff_mem, beq_iff_eq]
  constructor
  · intro hm
    have := (join_eq_name hl hgo (goName_comma (columnName_go hf hm))).1 rfl
    rw [this]; rfl
  · intro h1
    match l, h1 with
    | [n], _ => exact h n (by simp)

include hok in
theorem restKeys_form :
    restKeys (t.columns.map (·.columnName)) (keyMods cat t) =
      ((keysOf t).filter fun k => !(k.constraintType == PRIMARY_KEY || k.columns.length == 1)).map
        (fullMod cat.currentSchema t.indexes) := by
  rw [restKeys_eq (fullMods_distinct hf hok)]
  unfold keyMods
  rw [List.filter_map]
  congr 1
  refine List.filter_congr fun k hk => ?_
  simp only [Function.comp_apply, fullMod_name, fullMod_value]
  rw [contains_value hf (keyColumns_go hf hk).1 (hf.keys k hk).columns.2]
  congr 2
  rw [Bool.eq_iff_iff, beq_iff_eq, beq_iff_eq]
  have e0 : kindName PRIMARY_KEY = b!"primarykey" := rfl
  exact ⟨fun e => kindName_inj (mem_keysOf.1 hk).2 (Or.inl rfl) (e.trans e0.symm), fun e => by rw [e]; rfl⟩

include hok in
theorem restIndexes_form :
    restIndexes (t.columns.map (·.columnName)) (keyMods cat t) (indexModifiers t) =
      (t.indexes.filter fun x =>
        !((keysOf t).any fun k => k.constraintType == FOREIGN_KEY && k.columns == x.columns) &&
        !(x.columns.length == 1)).map indexModifier := by
  have hd := indexMods_distinct hf hok
  have hx := indexModifiers_eq hf
  rw [hx, restIndexes_eq _ hd (by intro m hm; obtain ⟨x, _, rfl⟩ := List.mem_map.1 hm; rfl),
    List.filter_map]
  congr 1
  refine List.filter_congr fun x hx => ?_
  have hv : (indexModifier x).value = join b!"," x.columns := rfl
  simp only [Function.comp_apply, hv]
  rw [contains_value hf (indexColumns_go hf hx).1 (hf.indexes x hx).columns.2]
  congr 2
  unfold keyMods
  rw [List.any_map]
  rw [Bool.eq_iff_iff, List.any_eq_true, List.any_eq_true]
  refine exists_congr fun k => and_congr_right fun hk => ?_
  simp only [Function.comp_apply, fullMod_name, fullMod_value, Bool.and_eq_true, beq_iff_eq]
  have e0 : kindName FOREIGN_KEY = b!"foreignkey" := rfl
  constructor
  · rintro ⟨e1, e2⟩
    exact ⟨kindName_inj (mem_keysOf.1 hk).2 (Or.inr (Or.inr rfl)) (e1.trans e0.symm),
      join_inj (keyColumns_go hf hk).1 (indexColumns_go hf hx).1 (keyColumns_comma hf hk)
        (indexColumns_comma hf hx) e2⟩
  · rintro ⟨e1, e2⟩; exact ⟨by rw [e1]; rfl, by rw [e2]⟩

/-- The primary key on several columns. -/
def widePkey (t : Table) : List Constraint :=
  (keysOf t).filter fun k => k.constraintType == PRIMARY_KEY && k.columns.length != 1

include hok in
theorem tableModifiers_form :
    tableModifiers d (t.columns.map (·.columnName)) (keyMods cat t) t =
      (widePkey t).map (fullMod cat.currentSchema t.indexes) := by
  have hp : (atPos (keyMods cat t) (pkeyPos (keyMods cat t))).filter
      (fun m => !((t.columns.map (·.columnName)).contains m.value)) =
      (widePkey t).map (fullMod cat.currentSchema t.indexes) := by
    rw [pkeyAt_eq (fullMods_distinct hf hok), List.filter_filter]
    unfold keyMods widePkey
    rw [List.filter_map]
    congr 1
    refine List.filter_congr fun k hk => ?_
    simp only [Function.comp_apply, fullMod_name, fullMod_value]
    rw [contains_value hf (keyColumns_go hf hk).1 (hf.keys k hk).columns.2, Bool.and_comm]
    congr 1
    rw [Bool.eq_iff_iff, beq_iff_eq, beq_iff_eq]
    have e0 : kindName PRIMARY_KEY = b!"primarykey" := rfl
    exact ⟨fun e => kindName_inj (mem_keysOf.1 hk).2 (Or.inl rfl) (e.trans e0.symm), fun e => by rw [e]; rfl⟩
  unfold tableModifiers
  dsimp only
  rw [hp]
  split
  · rfl
  · rename_i h0
    have h0 : (widePkey t).map (fullMod cat.currentSchema t.indexes) = [] := Classical.not_not.1 h0
    rw [h0]
    split
    · rename_i hv
      have := hf.notVirtual hv.1
      simp [isVirtualTable, this.1, this.2] at hv
    · rfl

/-! ## The struct of a table -/

/-- SQLite: the column is the row number. -/
def rowid (d : Dialect) (t : Table) (c : Column) : Bool :=
  d == .sqlite && !(keysOn t PRIMARY_KEY c.columnName).isEmpty && toUpper c.columnType == b!"INTEGER"

/-- The modifier `type`. -/
def typeMods (d : Dialect) (t : Table) (fieldType : Str) (c : Column) : List Modifier :=
  if c.columnType ≠ [] ∧ c.columnType ≠ defaultColumnType d fieldType ∧ !rowid d t c then
    [raw b!"type" c.columnType]
  else []

/-- The modifiers of a column. -/
def columnMods (d : Dialect) (cat : Catalog) (t : Table) (fieldType : Str) (c : Column) : List Modifier :=
  typeMods d t fieldType c ++
  (if c.isNotNull then [flag b!"notnull"] else []) ++
  (keysOn t PRIMARY_KEY c.columnName).map (fun k => noValue (fullMod cat.currentSchema t.indexes k)) ++
  (keysOn t UNIQUE c.columnName).map (fun k => noValue (fullMod cat.currentSchema t.indexes k)) ++
  (keysOn t FOREIGN_KEY c.columnName).map
    (fun k => asReferences (fullMod cat.currentSchema t.indexes k)) ++
  autoModifier d c ++
  identityModifier d c ++
  defaultModifier c ++
  (if c.onUpdateCurrentTimestamp then [flag b!"onupdatecurrenttimestamp"] else []) ++
  (if c.collationName ≠ [] ∧ c.collationName ≠ cat.defaultCollation then
    [raw b!"collate" c.collationName] else []) ++
  (if keysOn t FOREIGN_KEY c.columnName = [] then
    (t.indexes.filter fun x => x.columns == [c.columnName]).map (fun x => noValue (indexModifier x))
   else []) ++
  (if c.isGenerated ∨ c.generatedExpr ≠ [] then [flag b!"generated"] else [])

theorem isRowid_eq (hok : CatalogSpec.TableOk t) {c : Column} (hc : c ∈ t.columns) :
    isRowid d (keyMods cat t) c = rowid d t c := by
  unfold isRowid rowid
  congr 2
  rw [Bool.eq_iff_iff, List.any_eq_true]
  have h := pkeyAt (cat := cat) hf hok (hf.columns c hc).name
  constructor
  · rintro ⟨m, hm, hv⟩
    have : m ∈ (atPos (keyMods cat t) (pkeyPos (keyMods cat t))).filter
      (fun m => m.value == c.columnName) := List.mem_filter.2 ⟨hm, hv⟩
    rw [h] at this
    obtain ⟨k, hk, -⟩ := List.mem_map.1 this
    cases hl : keysOn t PRIMARY_KEY c.columnName with
    | nil => rw [hl] at hk; simp at hk
    | cons a l => rfl
  · intro hl
    cases hl' : keysOn t PRIMARY_KEY c.columnName with
    | nil => rw [hl'] at hl; simp at hl
    | cons k l =>
      have hm : fullMod cat.currentSchema t.indexes k ∈
          (keysOn t PRIMARY_KEY c.columnName).map (fullMod cat.currentSchema t.indexes) :=
        List.mem_map_of_mem (by rw [hl']; simp)
      rw [← h, List.mem_filter] at hm
      exact ⟨_, hm.1, hm.2⟩

include hok in
theorem columnModifiers_form {c : Column} (hc : c ∈ t.columns) (ty : Str) :
    columnModifiers d cat.defaultCollation (keyMods cat t) (indexModifiers t) ty c =
      columnMods d cat t ty c := by
  have hn := (hf.columns c hc).name
  unfold columnModifiers columnMods typeModifier typeMods
  rw [if_neg (by simp [(hf.columns c hc).type.noDomain]), isRowid_eq hf hok hc,
    pkeyAt hf hok hn, keyAt_unique hf hok hn, keyAt_fkey hf hok hn, indexAt hf hok hn]
  simp only [fkeyPos_none hf hn, List.map_map]
  rfl

/-- The type of the field of a column. -/
def fieldType (d : Dialect) (c : Column) : Str := (getFieldType d c).getD []

theorem getFieldType_some {c : Column} (hc : c ∈ t.columns) :
    getFieldType d c = some (fieldType d c) := by
  have h := (hf.columns c hc).type.normal
  unfold fieldType
  have : (getFieldType d c).isSome := by
    unfold getFieldType
    by_cases h1 : c.isEnum = true
    · rw [if_pos h1]; rfl
    · rw [if_neg h1]
      by_cases h2 : hasSuffix c.columnType b!"[]" = true
      · rw [if_pos h2]; rfl
      · rw [if_neg h2, Option.isSome_map]; exact h
  obtain ⟨x, hx⟩ := Option.isSome_iff_exists.1 this
  rw [hx]; rfl

/-- The field of a column. -/
def columnFieldOf (d : Dialect) (cat : Catalog) (t : Table) (c : Column) : StructField :=
  { name := toUpper (noSpace c.columnName)
    type := fieldType d c
    nameTag := if needsQuoting c.columnName then c.columnName else []
    modifiers := columnMods d cat t (fieldType d c) c }

/-- The keys that are written at the end. -/
def restKeysOf (t : Table) : List Constraint :=
  (keysOf t).filter fun k => !(k.constraintType == PRIMARY_KEY || k.columns.length == 1)

/-- The indexes that are written at the end. -/
def restIndexesOf (t : Table) : List Index :=
  t.indexes.filter fun x =>
    !((keysOf t).any fun k => k.constraintType == FOREIGN_KEY && k.columns == x.columns) &&
    !(x.columns.length == 1)

omit hf in
theorem mapM_some {α β : Type} {f : α → Option β} {g : α → β} {l : List α}
    (h : ∀ a ∈ l, f a = some (g a)) : l.mapM f = some (l.map g) := by
  induction l with
  | nil => rfl
  | cons a l ih =>
    rw [List.mapM_cons, h a (by simp), ih fun b hb => h b (by simp [hb])]
    rfl

/-- The struct of a table. -/
def structOf (d : Dialect) (cat : Catalog) (t : Table) : TableStruct :=
  { name := toUpper (noSpace t.tableName)
    fields :=
      { type := b!"sq.TableStruct", nameTag := tableTag cat.currentSchema t,
        modifiers := (widePkey t).map (fullMod cat.currentSchema t.indexes) } ::
      t.columns.map (columnFieldOf d cat t) ++
      ((restKeysOf t).map (fun k => blankField (fullMod cat.currentSchema t.indexes k)) ++
       (restIndexesOf t).map (fun x => blankField (indexModifier x))) }

end

theorem tableStruct_form {isFloat : Str → Bool} {cat : Catalog} {t : Table}
    (hf : TableFits isFloat (dialectOf cat.dialect) cat t) (hok : CatalogSpec.TableOk t) :
    tableStruct cat t = some (structOf (dialectOf cat.dialect) cat t) := by
  have hl : t.columns.filter (fun c => !c.ignore) = t.columns := by
    rw [List.filter_eq_self]; intro c hc; simp [(hf.columns c hc).live]
  unfold tableStruct
  dsimp only
  rw [withIndexes_keys hf hok, hl, tableModifiers_form hf hok, restKeys_form hf hok,
    restIndexes_form hf hok,
    mapM_some (g := columnFieldOf (dialectOf cat.dialect) cat t) (by
      intro c hc
      unfold columnField
      rw [getFieldType_some hf hc, Option.map_some, columnModifiers_form hf hok hc]
      rfl)]
  simp only [Option.map_some, structOf, restKeysOf, restIndexesOf, List.map_append, List.map_map]
  rfl

end Sqddl.Structs
