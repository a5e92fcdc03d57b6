import Verif.Props.ScriptKeysPostgres
import Verif.Spec.ScriptColumns

/-!
# C112: the columns of MySQL are reported as they were defined
-/

namespace Sqddl.Scripts
open OwnSpec ColumnSpec

/-- the table is one that is asked for -/
def MyTabAsked (f : Filter) (t : MyTab) : Prop :=
  t.type = b!"BASE TABLE" ∧ (f.system = true ∨ ¬ MyOwn t.schema) ∧ Wanted f.schemas f.excludeSchemas t.schema ∧
    Wanted f.tables f.excludeTables t.name

/-- what `extra` tells -/
theorem extraOf_plain {k : MyColumn} (hg : k.generated ≠ none → k.autoIncrement = false ∧ k.expression = false ∧ k.onUpdate = none)
    (ha : k.autoIncrement = true → k.expression = false ∧ k.onUpdate = none)
    (hp : k.invisible = false ∧ ∀ n, k.onUpdate = some n → n = 0 ∧ k.expression = true) :
    (some (extraOf k) == some b!"auto_increment") = k.autoIncrement ∧
    (some (extraOf k) == some b!"DEFAULT_GENERATED on update CURRENT_TIMESTAMP") = k.onUpdate.isSome ∧
    (some (extraOf k) == some b!"STORED GENERATED") = (k.generated.map (·.2)).getD false := by
  obtain ⟨n, ty, l, p, s, ai, nn, ou, ge, co, de, ex, inv, cm⟩ := k
  simp only at hg ha hp
  obtain ⟨rfl, h2⟩ := hp
  unfold extraOf
  simp only
  rcases ge with _ | ⟨e, st⟩
  · rcases ou with _ | m
    · cases ai <;> cases ex <;> first | exact ⟨rfl, rfl, rfl⟩ | (have := ha rfl; simp at this)
    · obtain ⟨rfl, rfl⟩ := h2 m rfl
      cases ai
      · exact ⟨rfl, rfl, rfl⟩
      · have := ha rfl; simp at this
  · obtain ⟨rfl, rfl, rfl⟩ := hg (by simp)
    cases st <;> exact ⟨rfl, rfl, rfl⟩

theorem myColumnRow_shown {collation : Str} {t : MyTab} {x : MyColumn × Nat}
    (hg : x.1.generated ≠ none → x.1.autoIncrement = false ∧ x.1.expression = false ∧ x.1.onUpdate = none)
    (ha : x.1.autoIncrement = true → x.1.expression = false ∧ x.1.onUpdate = none)
    (hp : x.1.invisible = false ∧ ∀ n, x.1.onUpdate = some n → n = 0 ∧ x.1.expression = true) :
    myColumnRow collation (myColRow t x) = myShownColumn collation t x.1 := by
  obtain ⟨h1, h2, h3⟩ := extraOf_plain hg ha hp
  unfold myColumnRow myShownColumn myColRow
  simp only [h1, h2, h3]
  cases x.1.notNull <;> rfl

theorem mem_zipIdx_fst {A : Type} {l : List A} {n : Nat} {x : A × Nat} (h : x ∈ l.zipIdx n) : x.1 ∈ l := by
  have : x.1 ∈ (l.zipIdx n).map (·.1) := List.mem_map.mpr ⟨x, h, rfl⟩
  rwa [List.zipIdx_map_fst] at this

/-- C112: the columns of MySQL that are reported are those of the tables that are asked for, for each
table in their order, as they were defined, if no column is invisible and those that are updated have an
expression as default and no digits. -/
theorem mysql_columns_partial {collation : Str} {f : Filter} {db : List MyTab} {tables : List (Str × Str × Str)}
    {cols : List MyCol} (hf : OneOf f.schemas f.excludeSchemas) (ht : OneOf f.tables f.excludeTables)
    (hs : MyColShows db tables cols) (hv : MyColValid db) (hx : PlainExtra db) :
    (∀ x, x ∈ myColumns collation f tables cols ↔ ∃ t ∈ db, MyTabAsked f t ∧ t.columns ≠ [] ∧
      x = ((t.schema, t.name), t.columns.map (myShownColumn collation t))) ∧
    ((myColumns collation f tables cols).map (·.1)).Nodup := by
  let sel : MyTab → Bool := fun t => t.type == b!"BASE TABLE" && myShown f t.schema && passes f.tables f.excludeTables t.name
  have hsel : ∀ t, sel t = true ↔ MyTabAsked f t := by
    intro t
    simp only [sel, MyTabAsked, Bool.and_eq_true, beq_iff_eq, myShown_iff hf, passes_iff ht, and_assoc]
  have hn : db.Nodup := nodup_of_map hv.names
  let sel' : MyTab → Bool := fun t => sel t && !t.columns.isEmpty
  let view : MyTab → (Str × Str) × List Column := fun t => ((t.schema, t.name), t.columns.map (myShownColumn collation t))
  have hkeys : (((db.filter sel').map view).map (·.1)).Nodup := by
    rw [List.map_map]
    refine map_nodup_of (hn.filter _) ?_
    intro i hi j hj e
    exact map_nodup_inj hv.names (List.mem_filter.mp hi).1 (List.mem_filter.mp hj).1 e
  have hp : (myColumns collation f tables cols).Perm ((db.filter sel').map view) := by
    unfold myColumns
    refine grouped_perm 1 hkeys ?_ ?_
    · intro i hi
      obtain ⟨t, h, rfl⟩ := List.mem_map.mp hi
      have h2 := (List.mem_filter.mp h).2
      simp only [sel', Bool.and_eq_true, Bool.not_eq_true', List.isEmpty_eq_false_iff] at h2
      simpa [view] using h2.2
    · refine (flatMap_comm _ _ _).trans ?_
      refine (join_perm _ hn hs.tables hs.cols ?_).trans (.of_eq ?_)
      · intro i hi j hj hji u hu
        obtain ⟨x, _, rfl⟩ := List.mem_map.mp hu
        refine if_neg fun h => hji ?_
        simp only [Bool.and_eq_true, beq_iff_eq, myColRow] at h
        exact map_nodup_inj hv.names hj hi (by simp only [h.1.1.1.1, h.1.1.1.2])
      · rw [List.flatMap_map, ← flatMap_if]
        refine flatMap_congr fun t hmem => ?_
        rw [List.flatMap_map]
        by_cases hk : sel t = true
        · rw [flatMap_congr (g := fun x => [((t.schema, t.name), x.2, myShownColumn collation t x.1)])]
          · by_cases he : t.columns = []
            · rw [if_neg (by simp [sel', he]), he]; rfl
            · rw [if_pos (by simp [sel', he, hk])]
              unfold spread
              rw [numbered_zipIdx]
              simp only [view, List.zipIdx_map, List.map_map, ← List.map_eq_flatMap]
              rfl
          · intro x hxm
            have hm := mem_zipIdx_fst hxm
            rw [if_pos, myColumnRow_shown (hv.generated t hmem _ hm) (hv.autoIncrement t hmem _ hm) (hx t hmem _ hm)]
            · rfl
            · simpa [sel, myColRow, and_assoc] using hk
        · rw [if_neg (by simp [sel', hk]), List.flatMap_eq_nil_iff]
          intro x _
          rw [if_neg]
          intro h
          refine hk ?_
          simpa [sel, myColRow, and_assoc] using h
  constructor
  · intro x
    rw [hp.mem_iff, List.mem_map]
    have hsel' : ∀ t, sel' t = true ↔ MyTabAsked f t ∧ t.columns ≠ [] := by
      intro t
      simp only [sel', Bool.and_eq_true, hsel, Bool.not_eq_true', List.isEmpty_eq_false_iff]
    constructor
    · rintro ⟨t, h, rfl⟩
      rw [List.mem_filter, hsel'] at h
      exact ⟨t, h.1, h.2.1, h.2.2, rfl⟩
    · rintro ⟨t, h1, h2, h3, rfl⟩
      exact ⟨t, List.mem_filter.mpr ⟨h1, (hsel' t).mpr ⟨h2, h3⟩⟩, rfl⟩
  · exact (hp.map _).nodup_iff.mpr hkeys

end Sqddl.Scripts
