import Verif.Props.ScriptColumnsMysql
import Verif.Props.ScriptIndexesPostgres
import Verif.Props.ScriptIndexesSqlserver

/-!
# C112: the columns of SQL Server are reported as they were defined
-/

namespace Sqddl.Scripts
open OwnSpec ColumnSpec

/-- the tables of the server itself are those whose names begin like them -/
def MsColPlain (fold : Char → Char) (shipped : MsTabDef → Prop) (db : List MsTabDef) : Prop :=
  ∀ t ∈ db, shipped t ↔ Longer fold b!"spt" t.name ∨ Longer fold b!"msreplication" t.name

/-- the table is asked for -/
def MsTabAsked (shipped : MsTabDef → Prop) (f : Filter) (t : MsTabDef) : Prop :=
  (f.system = true ∨ ¬ shipped t) ∧ Wanted f.schemas f.excludeSchemas t.schema ∧
    Wanted f.tables f.excludeTables t.name

theorem msTabShown_iff {fold : Char → Char} {shipped : MsTabDef → Prop} {f : Filter} {db : List MsTabDef}
    (hf : OneOf f.schemas f.excludeSchemas) (ht : OneOf f.tables f.excludeTables) (hn : MsColPlain fold shipped db)
    {t : MsTabDef} (h : t ∈ db) : msShown fold f ⟨t.id, t.schema, t.name⟩ = true ↔ MsTabAsked shipped f t := by
  have l1 : like fold b!"spt_%" t.name = true ↔ Longer fold b!"spt" t.name :=
    like_more fold (lit := b!"spt") (by decide) t.name
  have l2 : like fold b!"msreplication_%" t.name = true ↔ Longer fold b!"msreplication" t.name :=
    like_more fold (lit := b!"msreplication") (by decide) t.name
  unfold msShown MsTabAsked
  simp only [Bool.and_eq_true, Bool.or_eq_true, Bool.not_eq_true', ← Bool.not_eq_true, l1, l2,
    passes_iff hf, passes_iff ht, hn t h, not_or, and_assoc]

theorem filterMap_toList {A B : Type} (g : A → Option B) (l : List A) :
    l.filterMap g = l.flatMap fun a => (g a).toList := by
  induction l with
  | nil => rfl
  | cons a l ih =>
    rw [List.flatMap_cons, List.filterMap_cons, ih]
    cases g a <;> rfl

/-- the row of a column in a table that has rows for some of the columns -/
theorem leftJoin_part {V : Type} {db : List MsTabDef} (hids : (db.map (·.id)).Nodup)
    (hcols : ∀ t ∈ db, (t.columns.map (·.id)).Nodup) (part : MsColumnDef → Option V) {rows : List (Nat × Nat × V)}
    (hp : rows.Perm (db.flatMap fun t => t.columns.filterMap fun k => (part k).map fun v => (t.id, k.id, v)))
    {t : MsTabDef} (ht : t ∈ db) {k : MsColumnDef} (hk : k ∈ t.columns) :
    leftJoin rows (fun r => r.1 == t.id && r.2.1 == k.id) = [(part k).map fun v => (t.id, k.id, v)] := by
  have hper : (rows.filter (fun r => r.1 == t.id && r.2.1 == k.id)).Perm
      ((part k).map fun v => (t.id, k.id, v)).toList := by
    refine (hp.filter _).trans (.of_eq ?_)
    rw [List.filter_flatMap, flatMap_only ht (nodup_of_map hids)]
    · rw [filterMap_toList, List.filter_flatMap, flatMap_only hk (nodup_of_map (hcols t ht))]
      · cases part k <;> simp
      · intro j hj hjk
        rw [List.filter_eq_nil_iff]
        intro r hr
        cases hpj : part j with
        | none => rw [hpj] at hr; cases hr
        | some v =>
          rw [hpj] at hr
          simp only [Option.map_some, Option.toList_some, List.mem_singleton] at hr
          subst hr
          simp only [Bool.and_eq_true, beq_iff_eq, not_and]
          intro _ e
          exact hjk (map_nodup_inj (hcols t ht) hj hk e)
    · intro j hj hjt
      rw [List.filter_eq_nil_iff]
      intro r hr
      obtain ⟨k', _, h2⟩ := List.mem_filterMap.mp hr
      obtain ⟨v, _, rfl⟩ := Option.map_eq_some_iff.mp h2
      simp only [Bool.and_eq_true, beq_iff_eq, not_and]
      intro e
      exact absurd (map_nodup_inj hids hj ht e) hjt
  unfold leftJoin
  cases hpk : part k with
  | none =>
    rw [hpk] at hper
    rw [if_pos hper.eq_nil]; rfl
  | some v =>
    rw [hpk] at hper
    have := List.perm_singleton.mp hper
    rw [this, if_neg (by simp)]; rfl

theorem msTypeName_base {c : MsColInfo} (hn : (c.types.map (·.oid)).Nodup) {id : Nat} {n : Str}
    (h : (⟨id, n⟩ : PgNamed) ∈ c.types) : msTypeName c.types id = some n := by
  unfold msTypeName
  cases hf : c.types.find? (fun t => t.oid == id) with
  | none =>
    have := List.find?_eq_none.mp hf _ h
    simp at this
  | some x =>
    have h1 := List.mem_of_find?_eq_some hf
    have h2 := List.find?_some hf
    have := map_nodup_inj hn h1 h (by simpa using h2)
    rw [this]; rfl

/-- C112: the columns of SQL Server that are reported are those of the tables that are asked for, for
each table in their order, as they were defined, if none has a .NET type; a type that is another name for
one of the server's is reported as that one. -/
theorem sqlserver_columns_partial {fold : Char → Char} {shipped : MsTabDef → Prop} {collation : Str} {f : Filter}
    {db : List MsTabDef} {c : MsColInfo} (hf : OneOf f.schemas f.excludeSchemas)
    (ht : OneOf f.tables f.excludeTables) (hn : MsColPlain fold shipped db) (hs : MsColShows db c)
    (hv : MsColValid db c) (hx : NoClr db) :
    (∀ x, x ∈ msColumns fold collation f c ↔ ∃ t ∈ db, MsTabAsked shipped f t ∧ t.columns ≠ [] ∧
      x = ((t.schema, t.name), t.columns.map (msShownColumn collation t))) ∧
    ((msColumns fold collation f c).map (·.1)).Nodup := by
  let sel : MsTabDef → Bool := fun t => msShown fold f ⟨t.id, t.schema, t.name⟩
  have hnd : db.Nodup := nodup_of_map hv.names
  let sel' : MsTabDef → Bool := fun t => sel t && !t.columns.isEmpty
  let view : MsTabDef → (Str × Str) × List Column := fun t =>
    ((t.schema, t.name), t.columns.map (msShownColumn collation t))
  have hkeys : (((db.filter sel').map view).map (·.1)).Nodup := by
    rw [List.map_map]
    refine map_nodup_of (hnd.filter _) ?_
    intro i hi j hj e
    exact map_nodup_inj hv.names (List.mem_filter.mp hi).1 (List.mem_filter.mp hj).1 e
  have hrow : ∀ t ∈ db, ∀ x ∈ t.columns.zipIdx 1,
      msColumnRow collation c ⟨t.id, t.schema, t.name⟩ (msColRow t x)
        (x.1.identity.map fun v => (t.id, x.1.id, v)) (x.1.computed.map fun v => (t.id, x.1.id, v)) =
      msShownColumn collation t x.1 := by
    intro t hmem x hxm
    have hm := mem_zipIdx_fst hxm
    have hty : (msTypeName c.types x.1.type.sys).getD t.name = x.1.type.base := by
      obtain ⟨h1, h2, _⟩ := hs.types t hmem _ hm
      cases hk : x.1.type with
      | system id n => exact congrArg (·.getD t.name) (msTypeName_base hv.typeIds (h1 id n hk))
      | «alias» id n b m => exact congrArg (·.getD t.name) (msTypeName_base hv.typeIds (h2 id n b m hk))
      | clr id n => exact absurd hk (hx t hmem _ hm id n)
    unfold msColumnRow msShownColumn msColRow
    simp only [hty]
    cases hi : x.1.identity <;> cases hg : x.1.computed <;> rfl
  have hp : (msColumns fold collation f c).Perm ((db.filter sel').map view) := by
    unfold msColumns
    refine grouped_perm 1 hkeys ?_ ?_
    · intro i hi
      obtain ⟨t, h, rfl⟩ := List.mem_map.mp hi
      have h2 := (List.mem_filter.mp h).2
      simp only [sel', Bool.and_eq_true, Bool.not_eq_true', List.isEmpty_eq_false_iff] at h2
      simpa [view] using h2.2
    · refine (flatMap_comm _ _ _).trans ?_
      refine (join_perm _ hnd hs.tables hs.cols ?_).trans (.of_eq ?_)
      · intro i hi j hj hji u hu
        obtain ⟨x, _, rfl⟩ := List.mem_map.mp hu
        refine if_neg fun h => hji ?_
        simp only [Bool.and_eq_true, beq_iff_eq, msColRow] at h
        exact map_nodup_inj hv.ids hj hi h.1.symm
      · rw [List.flatMap_map, ← flatMap_if]
        refine flatMap_congr fun t hmem => ?_
        rw [List.flatMap_map]
        by_cases hk : sel t = true
        · rw [flatMap_congr (g := fun x => [((t.schema, t.name), x.2, msShownColumn collation t x.1)])]
          · by_cases he : t.columns = []
            · rw [if_neg (by simp [sel', he]), he]; rfl
            · rw [if_pos (by simp [sel', he, hk])]
              unfold spread
              rw [numbered_zipIdx]
              simp only [view, List.zipIdx_map, List.map_map, ← List.map_eq_flatMap]
              rfl
          · intro x hxm
            have hm := mem_zipIdx_fst hxm
            have e1 := leftJoin_part hv.ids hv.columnIds (·.identity) hs.identities hmem hm
            have e2 := leftJoin_part hv.ids hv.columnIds (·.computed) hs.computed hmem hm
            rw [if_pos (by simpa [msColRow] using hk)]
            simp only [msColRow] at e1 e2 ⊢
            rw [e1, e2]
            simp only [List.flatMap_cons, List.flatMap_nil, List.map_cons, List.map_nil, List.append_nil]
            exact congrArg (fun r => [((t.schema, t.name), x.2, r)]) (hrow t hmem x hxm)
        · rw [if_neg (by simp [sel', hk]), List.flatMap_eq_nil_iff]
          intro x _
          exact if_neg (fun h => hk (by simpa [msColRow] using h))
  have hsel' : ∀ t ∈ db, sel' t = true ↔ MsTabAsked shipped f t ∧ t.columns ≠ [] := by
    intro t hmem
    simp only [sel', sel, Bool.and_eq_true, msTabShown_iff hf ht hn hmem, Bool.not_eq_true', List.isEmpty_eq_false_iff]
  constructor
  · intro x
    rw [hp.mem_iff, List.mem_map]
    constructor
    · rintro ⟨t, h, rfl⟩
      rw [List.mem_filter] at h
      obtain ⟨h2, h3⟩ := (hsel' t h.1).mp h.2
      exact ⟨t, h.1, h2, h3, rfl⟩
    · rintro ⟨t, h1, h2, h3, rfl⟩
      exact ⟨t, List.mem_filter.mpr ⟨h1, (hsel' t h1).mpr ⟨h2, h3⟩⟩, rfl⟩
  · exact (hp.map _).nodup_iff.mpr hkeys

end Sqddl.Scripts
