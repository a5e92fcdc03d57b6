import Verif.Model.Introspect
import Verif.Lemmas.Quote
import Verif.Props.Quote
import Verif.Props.Ddl
import Verif.Props.PqArray
import Verif.Spec.Ddl

/-!
# What is read from the rows of the introspection queries
-/

namespace Sqddl.Introspect
open Go SqlSpec DdlSpec

/-! ## Lists of names -/

theorem split_plain {c : Char} {s : Str} (h : c ∉ s) : split c s = [s] := by
  induction s with
  | nil => rfl
  | cons x s ih =>
    rw [List.mem_cons, not_or] at h
    rw [split, if_neg (fun e => h.1 e.symm), ih h.2]

theorem split_append {c : Char} {s r : Str} (h : c ∉ s) :
    split c (s ++ c :: r) = s :: split c r := by
  induction s with
  | nil => simp [split]
  | cons x s ih =>
    rw [List.mem_cons, not_or] at h
    rw [List.cons_append, split, if_neg (fun e => h.1 e.symm), ih h.2]

theorem split_join {c : Char} {l : List Str} (hl : l ≠ []) (h : ∀ s ∈ l, c ∉ s) :
    split c (join [c] l) = l := by
  induction l with
  | nil => exact absurd rfl hl
  | cons a l ih =>
    cases l with
    | nil => exact split_plain (h a (by simp))
    | cons b l =>
      have h1 := ih (by simp) (fun s hs => h s (by simp [hs]))
      rw [join, show a ++ [c] ++ join [c] (b :: l) = a ++ c :: join [c] (b :: l) by simp,
        split_append (h a (by simp)), h1]

theorem join_nil_iff {c : Char} {l : List Str} : join [c] l = [] ↔ l = [] ∨ l = [[]] := by
  match l with
  | [] => simp [join]
  | [a] => simp [join]
  | a :: b :: l => simp [join]

theorem nameList_join {l : List Str} (hl : l ≠ [[]]) (h : ∀ s ∈ l, ',' ∉ s) :
    nameList (join b!"," l) = l := by
  unfold nameList
  split
  · rename_i e
    rcases join_nil_iff.1 e with e | e
    · exact e.symm
    · exact absurd e hl
  · rename_i e
    exact split_join (fun e' => e (by rw [e']; rfl)) h

theorem barList_join {l : List Str} (hl : l ≠ [[]]) (h : ∀ s ∈ l, '|' ∉ s) :
    barList (join b!"|" l) = l := by
  unfold barList
  split
  · rename_i e
    rcases join_nil_iff.1 e with e | e
    · exact e.symm
    · exact absurd e hl
  · rename_i e
    exact split_join (fun e' => e (by rw [e']; rfl)) h

/-- **C80, partial**: the columns of a constraint, and the columns it references, are those of the
database: the queries of SQLite, MySQL and SQL Server give the names joined with commas, that of
Postgres gives a list.  Missing: names with a comma, see `commaName_refuted`. -/
theorem scanConstraint_columns_partial (d : Dialect) (hd : supported d = true) (r : ConstraintRow)
    (cols refs : List Str)
    (hp : d = .postgres → r.row.columns = cols ∧ r.row.referencesColumns = refs)
    (ht : d ≠ .postgres → r.columns = join b!"," cols ∧ r.referencesColumns = join b!"," refs)
    (h1 : cols ≠ [[]] ∧ ∀ s ∈ cols, ',' ∉ s) (h2 : refs ≠ [[]] ∧ ∀ s ∈ refs, ',' ∉ s) :
    (scanConstraint d r).columns = cols ∧ (scanConstraint d r).referencesColumns = refs := by
  have e1 := nameList_join h1.1 h1.2
  have e2 := nameList_join h2.1 h2.2
  cases d <;> simp [supported] at hd <;> simp at hp ht <;> simp [scanConstraint, hp, ht]
  all_goals exact ⟨e1, e2⟩

example : (scanConstraint .mysql
      { columns := b!"shop,id", referencesColumns := b!"shop_id,no" }).referencesColumns =
    [b!"shop_id", b!"no"] := by decide

/-- **C80, refuted** for names with a comma: on MySQL the foreign key of the one column `a,b` is
read as one of the two columns `a` and `b`. -/
theorem commaName_refuted :
    ¬ ∀ (cols : List Str), cols ≠ [] → cols ≠ [[]] →
      (scanConstraint .mysql { columns := join b!"," cols }).columns = cols := by
  intro h
  exact absurd (h [b!"a,b"] (by decide) (by decide)) (by decide)

/-! ## Columns of an index -/

/-- A bit of SQL Server or MySQL as text. -/
def bit (b : Bool) : Str := if b then b!"1" else b!"0"

theorem bit_plain (b : Bool) : ',' ∉ bit b ∧ bit b ≠ [] ∧ boolOf (bit b) = b := by
  cases b <;> decide

theorem boolList_bits (bs : List Bool) : boolList (join b!"," (bs.map bit)) = bs := by
  have hp : ∀ s ∈ bs.map bit, ',' ∉ s := by
    intro s hs
    obtain ⟨b, -, rfl⟩ := List.mem_map.1 hs
    exact (bit_plain b).1
  unfold boolList
  split
  · rename_i e
    rcases join_nil_iff.1 e with e | e
    · exact (List.map_eq_nil_iff.1 e).symm
    · cases bs with
      | nil => rfl
      | cons b bs => simp only [List.map_cons, List.cons.injEq] at e; exact absurd e.1 (bit_plain b).2.1
  · rename_i e
    have hne : bs.map bit ≠ [] := fun e' => e (by rw [e']; rfl)
    rw [split_join hne hp, List.map_map]
    have : boolOf ∘ bit = id := by funext b; exact (bit_plain b).2.2
    rw [this, List.map_id]

theorem divide_bits (names : List Str) : ∀ (pre flags : List Bool), flags.length = names.length →
    divide (pre ++ flags) pre.length names =
      some (((names.zip flags).filter fun p => !p.2).map (·.1),
        ((names.zip flags).filter fun p => p.2).map (·.1)) := by
  induction names with
  | nil => intro pre flags _; simp [divide]
  | cons s names ih =>
    intro pre flags hf
    cases flags with
    | nil => simp at hf
    | cons f flags =>
      have h1 := ih (pre ++ [f]) flags (by simpa using hf)
      rw [divide, if_pos (by simp)]
      simp only [List.append_assoc, List.length_append, List.length_cons, List.length_nil,
        List.cons_append, List.nil_append, Nat.zero_add] at h1
      simp only [List.getElem?_append_right (Nat.le_refl _), Nat.sub_self, List.getElem?_cons_zero,
        Option.bind_some, h1, Option.map_some, List.zip_cons_cons]
      cases f <;> simp

/-- **C80, partial**: an index of SQL Server has the key columns and the included columns of the
database, and the order of each key column.  The query gives the included columns (whose place in
the key is 0) before the key columns.  Missing: names with a comma, see `commaIndex_refuted`. -/
theorem sqlserverIndex_partial (r : IndexRow) (keys inc : List Str) (desc : List Bool)
    (hl : desc.length = keys.length) (hk : keys ≠ [])
    (hn : inc ++ keys ≠ [[]] ∧ ∀ s ∈ inc ++ keys, ',' ∉ s)
    (h1 : r.columns = join b!"," (inc ++ keys))
    (h2 : r.included = join b!"," ((inc.map fun _ => bit true) ++ keys.map fun _ => bit false))
    (h3 : r.descending = join b!"," ((inc.map fun _ => bit false) ++ desc.map bit)) :
    ∃ i, scanIndex .sqlserver r = some i ∧ i.columns = keys ∧ i.includeColumns = inc ∧
      i.descending = desc := by
  have e1 : nameList r.columns = inc ++ keys := by rw [h1]; exact nameList_join hn.1 hn.2
  have e2 : boolList r.included = (inc.map fun _ => true) ++ keys.map fun _ => false := by
    rw [h2, show (inc.map fun _ => bit true) ++ keys.map (fun _ => bit false) =
      ((inc.map fun _ => true) ++ keys.map fun _ => false).map bit by simp [Function.comp_def]]
    exact boolList_bits _
  have e3 : boolList r.descending = (inc.map fun _ => false) ++ desc := by
    rw [h3, show (inc.map fun _ => bit false) ++ desc.map bit =
      ((inc.map fun _ => false) ++ desc).map bit by simp [Function.comp_def]]
    exact boolList_bits _
  have hd : r.descending ≠ [] := by
    intro e
    rw [e] at e3
    have : (boolList []).length = 0 := rfl
    have := congrArg List.length e3
    rw [List.length_append, hl] at this
    have : 0 < keys.length := List.length_pos_iff.2 hk
    simp [boolList] at *
    omega
  have hz := divide_bits (inc ++ keys) [] ((inc.map fun _ => true) ++ keys.map fun _ => false)
    (by simp)
  have z1 : ∀ (xs : List Str) (b : Bool), xs.zip (xs.map fun _ => b) = xs.map fun x => (x, b) := by
    intro xs b
    induction xs with
    | nil => rfl
    | cons x xs ih => simp [ih]
  rw [List.zip_append (by simp), z1, z1] at hz
  simp only [List.nil_append, List.length_nil, List.filter_append, List.filter_map, Function.comp_def,
    List.map_append, List.map_map] at hz
  refine ⟨{ tableSchema := r.row.tableSchema
            tableName := r.row.tableName
            indexName := r.row.indexName
            indexType := r.row.indexType
            isViewIndex := r.row.isViewIndex
            isUnique := r.row.isUnique
            columns := keys
            includeColumns := inc
            descending := desc
            predicate := r.row.predicate }, ?_, rfl, rfl, rfl⟩
  have ft : ∀ xs : List Str, xs.filter (fun _ => true) = xs := by simp
  have ff : ∀ xs : List Str, xs.filter (fun _ => false) = [] := by simp
  simp only [scanIndex, e1, e2, e3, hz, Option.bind_some, if_neg hd, Bool.not_true, Bool.not_false,
    ft, ff]
  simp [dropFirst]

example : ∃ i, scanIndex .sqlserver
      { columns := b!"total,shop,day", included := b!"1,0,0", descending := b!"0,0,1" } = some i ∧
      i.columns = [b!"shop", b!"day"] ∧ i.includeColumns = [b!"total"] ∧
      i.descending = [false, true] :=
  sqlserverIndex_partial _ _ _ _ (by decide) (by decide) (by decide) rfl rfl rfl

/-- **C80, refuted** for names with a comma: an index of SQL Server on the column `a,b` makes the
introspection panic. -/
theorem commaIndex_refuted :
    scanIndex .sqlserver { columns := b!"a,b", included := b!"0", descending := b!"0" } = none := by
  decide

/-- **C80**: an index of Postgres has the key columns and the included columns of the database; the
query gives the key columns first, and how many they are. -/
theorem postgresIndex_columns (r : IndexRow) (keys inc : List Str)
    (h1 : r.row.columns = keys ++ inc) (h2 : r.numKeyColumns = keys.length) :
    ∃ i, scanIndex .postgres r = some i ∧ i.columns = keys ∧ i.includeColumns = inc := by
  simp [scanIndex, h1, h2]

example : ∃ i, scanIndex .postgres
      { row := { columns := [b!"a,b", b!"lower(c)", b!"d"] }, numKeyColumns := 2 } = some i ∧
      i.columns = [b!"a,b", b!"lower(c)"] ∧ i.includeColumns = [b!"d"] :=
  postgresIndex_columns _ [b!"a,b", b!"lower(c)"] [b!"d"] rfl rfl

theorem replacePair_none {a b n : Char} {s : Str} (h : a ∉ s) : replacePair a b n s = s := by
  fun_induction replacePair a b n s with
  | case1 x y s hxy ih => exact absurd (by simp [hxy.1]) h
  | case2 x y s hxy ih => rw [ih (fun hm => h (List.mem_cons_of_mem _ hm))]
  | case3 s hs => rfl

theorem trim_of_ends {s : Str} (h1 : ∀ c ∈ s.head?, isSpace c = false)
    (h2 : ∀ c ∈ s.getLast?, isSpace c = false) : trimSpace s = s := by
  have hd : ∀ t : Str, (∀ c ∈ t.head?, isSpace c = false) → t.dropWhile isSpace = t := by
    intro t ht
    cases t with
    | nil => rfl
    | cons x t => rw [List.dropWhile_cons, if_neg]; simpa using ht x rfl
  unfold trimSpace
  rw [hd s h1, hd s.reverse (by rw [List.head?_reverse]; exact h2), List.reverse_reverse]

/-- **C80, partial**: an index of MySQL has the columns and expressions of the database, and the
order of each.  Missing: what `splitArgs` divides wrongly (see `splitArgs_args_refuted`), names with
a comma, backslashes and blanks at the ends. -/
theorem mysqlIndex_partial (r : IndexRow) (cols : List Str) (desc : List Bool)
    (hne : cols ≠ [[]]) (ha : ∀ s ∈ cols, SimpleArg s)
    (hb : ∀ s ∈ cols, '\\' ∉ s)
    (hs : (∀ c ∈ (join b!"," cols).head?, isSpace c = false) ∧
      ∀ c ∈ (join b!"," cols).getLast?, isSpace c = false)
    (h1 : r.columns = join b!"," cols) (h2 : r.descending = join b!"," (desc.map bit)) :
    ∃ i, scanIndex .mysql r = some i ∧ i.columns = cols ∧ i.descending = desc := by
  have hj : ∀ l : List Str, (∀ s ∈ l, '\\' ∉ s) → '\\' ∉ join b!"," l := by
    intro l
    induction l with
    | nil => intro _; simp [join]
    | cons a l ih =>
      intro h
      cases l with
      | nil => exact h a (by simp)
      | cons b l =>
        have := ih (fun s hs => h s (by simp [hs]))
        simp only [join, List.mem_append, not_or]
        exact ⟨⟨h a (by simp), by decide⟩, this⟩
  refine ⟨_, rfl, ?_, ?_⟩
  · show splitArgs (trimSpace (replacePair '\\' '\'' '\'' r.columns)) = cols
    rw [h1, replacePair_none (hj cols hb), trim_of_ends hs.1 hs.2, splitArgs_args_partial cols hne ha]
  · show boolList r.descending = desc
    rw [h2, boolList_bits]

example : ∃ i, scanIndex .mysql { columns := b!"a,(f(b,1))", descending := b!"0,1" } = some i ∧
    i.columns = [b!"a", b!"(f(b,1))"] ∧ i.descending = [false, true] := by
  refine mysqlIndex_partial _ _ _ (by decide) ?_ (by decide) (by decide +kernel) rfl rfl
  intro s hs
  simp only [List.mem_cons, List.not_mem_nil, or_false] at hs
  rcases hs with rfl | rfl
  · exact .char _ _ _ (by decide) (.nil _)
  · exact .paren _ b!"f(b,1)" [] (.char _ _ _ (by decide) (.paren _ b!"b,1" []
      (.char _ _ _ (by decide) (.comma _ (.char _ _ _ (by decide) (.nil _)))) (.nil _))) (.nil _)

/-! ## Columns of a view -/

/-- A boolean of Postgres as text. -/
def boolText (b : Bool) : Str := if b then b!"true" else b!"false"

/-- **C80, partial**: a view of Postgres has the columns of the database, their types, and among
them those of an enum.  Missing: names and types with a `|`, see `barName_refuted`. -/
theorem postgresView_partial (r : ViewRow) (cols : List (Str × Str × Bool))
    (h0 : ∀ p ∈ cols, p.1 ≠ [] ∧ '|' ∉ p.1 ∧ p.2.1 ≠ [] ∧ '|' ∉ p.2.1)
    (h1 : r.columns = join b!"|" (cols.map (·.1)))
    (h2 : r.columnTypes = join b!"|" (cols.map (·.2.1)))
    (h3 : r.enumColumns = join b!"|" (cols.map fun p => boolText p.2.2)) :
    (scanView .postgres r).columns = cols.map (·.1) ∧
    (scanView .postgres r).columnTypes = cols.map (·.2.1) ∧
    (scanView .postgres r).enumColumns = (cols.filter (·.2.2)).map (·.1) := by
  have hne : ∀ (f : Str × Str × Bool → Str), (∀ p ∈ cols, f p ≠ []) → cols.map f ≠ [[]] := by
    intro f hf e
    cases cols with
    | nil => simp at e
    | cons p ps =>
      simp only [List.map_cons, List.cons.injEq] at e
      exact hf p (by simp) e.1
  have e1 : barList r.columns = cols.map (·.1) := by
    rw [h1]
    refine barList_join (hne _ fun p hp => (h0 p hp).1) ?_
    intro s hs
    obtain ⟨p, hp, rfl⟩ := List.mem_map.1 hs
    exact (h0 p hp).2.1
  have e2 : barList r.columnTypes = cols.map (·.2.1) := by
    rw [h2]
    refine barList_join (hne _ fun p hp => (h0 p hp).2.2.1) ?_
    intro s hs
    obtain ⟨p, hp, rfl⟩ := List.mem_map.1 hs
    exact (h0 p hp).2.2.2
  have hb : ∀ b, '|' ∉ boolText b ∧ boolText b ≠ [] ∧ boolOf (boolText b) = b := by
    intro b; cases b <;> decide
  have e3 : barList r.enumColumns = cols.map fun p => boolText p.2.2 := by
    rw [h3]
    refine barList_join (hne _ fun p _ => (hb _).2.1) ?_
    intro s hs
    obtain ⟨p, -, rfl⟩ := List.mem_map.1 hs
    exact (hb _).1
  refine ⟨e1, e2, ?_⟩
  show enumsOf (barList r.columns) r.enumColumns = _
  rw [e1]
  unfold barList at e3
  unfold enumsOf
  split at e3
  · rename_i e
    rw [if_pos e]
    rw [List.map_eq_nil_iff.1 e3.symm]
    rfl
  · rename_i e
    rw [if_neg e, e3]
    clear h0 h1 h2 h3 hne e1 e2 e3 e
    induction cols with
    | nil => rfl
    | cons p ps ih =>
      simp only [List.map_cons, List.zip_cons_cons, List.filterMap_cons, (hb _).2.2] at ih ⊢
      simp only [List.map_map] at ih ⊢
      cases h : p.2.2 <;> simp [h, ih]

example : (scanView .postgres { columns := b!"id|mood", columnTypes := b!"INTEGER|MOOD"
                                enumColumns := b!"false|true" }).enumColumns = [b!"mood"] := by decide

/-- **C80, refuted** for a `|` in the name of a column of a view. -/
theorem barName_refuted :
    (scanView .sqlite { columns := join b!"|" [b!"a||b", b!"c"] }).columns =
      [b!"a", [], b!"b", b!"c"] := by decide

end Sqddl.Introspect
