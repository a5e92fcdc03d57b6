import Verif.Props.StructFile

/-!
# C87, C88: the structs of views

What the structs that `sqddl views` writes say about the views of the database, and what becomes of them
in a file that `generate` reads.
-/

namespace Sqddl.Structs
open Go CatalogSpec StructSpec
open GoText (Ident SameTokens NoRedeclared)

/-- What the structs should say: schema and name of every view, with its columns and their types. -/
def viewFacts (cat : Catalog) : List (Option ((Str × Str) × List (Str × Str))) :=
  (viewsOf cat).map fun v => some ((v.viewSchema, v.viewName), viewColumns (dialectOf cat.dialect) v)

theorem mapM_forall {α β : Type} {f : α → Option β} : ∀ {l : List α} {r : List β}, l.mapM f = some r →
    (∀ a ∈ l, (f a).isSome) ∧ r.map some = l.map f
  | [], r, h => by
    obtain rfl : [] = r := by simpa using h
    simp
  | a :: l, r, h => by
    rw [List.mapM_cons] at h
    cases h1 : f a with
    | none => rw [h1] at h; cases h
    | some b =>
      cases h2 : l.mapM f with
      | none => rw [h1, h2] at h; cases h
      | some bs =>
        rw [h1, h2] at h
        obtain rfl : b :: bs = r := by simpa using h
        obtain ⟨i1, i2⟩ := mapM_forall h2
        refine ⟨fun x hx => ?_, by simp [h1, i2]⟩
        rcases List.mem_cons.1 hx with rfl | hx
        · rw [h1]; rfl
        · exact i1 x hx

/-- The fields of the columns of a view. -/
def viewFieldsOf (d : Dialect) (v : View) : List StructField :=
  (viewColumns d v).map fun e => { name := toUpper (noSpace e.1), type := e.2 }

/-- The struct of a view. -/
def viewStructOf (cat : Catalog) (v : View) : TableStruct :=
  { name := toUpper (noSpace v.viewName)
    fields := { type := b!"sq.ViewStruct", nameTag := viewTag cat.currentSchema v } ::
      viewFieldsOf (dialectOf cat.dialect) v }

theorem viewStruct_eq {cat : Catalog} {v : View} {s : TableStruct} (h : viewStruct cat v = some s) :
    s = viewStructOf cat v ∧ ∀ f ∈ viewFieldsOf (dialectOf cat.dialect) v, f.type ∈ fieldTypes := by
  unfold viewStruct at h
  rw [Option.map_eq_some_iff] at h
  obtain ⟨fs, h1, rfl⟩ := h
  obtain ⟨h2, _⟩ := mapM_forall h1
  have hget : ∀ e ∈ v.columns.zipIdx, ∃ ty, getFieldType (dialectOf cat.dialect)
      { columnType := v.columnTypes[e.2]?.getD [], isEnum := v.enumColumns.contains e.1 } = some ty := by
    intro e he
    have := h2 e he
    unfold viewField at this
    rw [Option.isSome_map] at this
    exact Option.isSome_iff_exists.1 this
  have h3 : v.columns.zipIdx.mapM (viewField (dialectOf cat.dialect) v) =
      some (viewFieldsOf (dialectOf cat.dialect) v) := by
    unfold viewFieldsOf viewColumns
    rw [List.map_map]
    refine mapM_some fun e he => ?_
    obtain ⟨ty, hty⟩ := hget e he
    unfold viewField
    simp only [Function.comp_apply, hty]
    rfl
  rw [h1] at h3
  obtain rfl := Option.some.inj h3
  refine ⟨rfl, ?_⟩
  intro f hf
  unfold viewFieldsOf viewColumns at hf
  rw [List.map_map] at hf
  obtain ⟨e, he, rfl⟩ := List.mem_map.1 hf
  obtain ⟨ty, hty⟩ := hget e he
  simp only [Function.comp_apply, hty]
  exact getFieldType_mem hty

theorem viewColumns_mem {d : Dialect} {v : View} {e : Str × Str} (h : e ∈ viewColumns d v) : e.1 ∈ v.columns := by
  unfold viewColumns at h
  obtain ⟨x, hx, rfl⟩ := List.mem_map.1 h
  exact (List.mem_zipIdx' hx).2 ▸ List.getElem_mem _

section
variable {cat : Catalog} (hfit : ∀ v ∈ viewsOf cat, ViewNameFits cat.currentSchema v)
include hfit

theorem viewTag_bare {v : View} (hv : v ∈ viewsOf cat) : '`' ∉ viewTag cat.currentSchema v := by
  have hf := hfit v hv
  have hn := goName_not hf.name (c := '`') (by decide)
  have hs := hf.schema
  unfold viewTag
  split
  · split
    · rename_i h
      rw [if_neg h] at hs
      simp only [List.mem_append, not_or]
      exact ⟨⟨hs.2, by decide⟩, hn⟩
    · exact hn
  · simp

/-- What the parser makes of the file of the views. -/
theorem views_read {ss : List TableStruct} (hss : readViews cat = some ss) {pkg : Str} (hp : Ident pkg)
    {text : Str} (ht : SameTokens text (header pkg ++ marshalViews ss)) :
    GoText.file text = some ((viewsOf cat).map fun v => GoText.astStruct (viewStructOf cat v)) := by
  obtain ⟨h1, h2⟩ := mapM_forall hss
  have h3 : ∀ v ∈ viewsOf cat, viewStruct cat v = some (viewStructOf cat v) ∧
      ∀ f ∈ viewFieldsOf (dialectOf cat.dialect) v, f.type ∈ fieldTypes := by
    intro v hv
    obtain ⟨s, hs⟩ := Option.isSome_iff_exists.1 (h1 v hv)
    obtain ⟨e, h⟩ := viewStruct_eq hs
    exact ⟨e ▸ hs, h⟩
  have h4 : ss = (viewsOf cat).map (viewStructOf cat) := by
    have := mapM_some fun v hv => (h3 v hv).1
    unfold readViews at hss
    rw [show cat.schemas.flatMap (·.views) = viewsOf cat from rfl, this] at hss
    exact (Option.some.inj hss).symm
  have h5 : ∀ v, ({ viewStructOf cat v with
      fields := (viewStructOf cat v).fields.map fun f => { f with modifiers := [] } } : TableStruct) =
      viewStructOf cat v := by
    intro v
    simp [viewStructOf, viewFieldsOf]
  have h6 : marshalViews ss = structsText ss := by
    unfold marshalViews
    congr 1
    rw [h4, List.map_map]
    exact List.map_congr_left fun v _ => h5 v
  rw [h6] at ht
  have h7 : ∀ s ∈ ss, GoText.StructOk s := by
    intro s hs
    rw [h4] at hs
    obtain ⟨v, hv, rfl⟩ := List.mem_map.1 hs
    refine GoText.writable_ok (base := b!"sq.ViewStruct")
      ⟨GoText.ident_goName (hfit v hv).name, ⟨_, _, rfl, rfl, rfl, ?_⟩, ?_⟩ (by decide)
    · intro g hg
      unfold viewFieldsOf at hg
      obtain ⟨e, he, rfl⟩ := List.mem_map.1 hg
      exact GoText.ident_goName ((hfit v hv).columns _ (viewColumns_mem he))
    · intro f hf
      rcases List.mem_cons.1 hf with rfl | hf
      · exact ⟨Or.inr ⟨b!"ViewStruct", by decide, rfl⟩, viewTag_bare hfit hv,
          show '`' ∉ printModifiers [] by decide⟩
      · have hty := (h3 v hv).2 f hf
        unfold viewFieldsOf at hf
        obtain ⟨e, he, rfl⟩ := List.mem_map.1 hf
        exact ⟨fieldTypes_ok _ hty, show '`' ∉ ([] : Str) by simp, show '`' ∉ printModifiers [] by decide⟩
  rw [GoText.file_read hp h7 ht, h4, List.map_map]
  rfl

theorem named_tag {f : StructField} {a : AstType} {n : Str} :
    named (GoText.astField f a).tag n = if f.nameTag ≠ [] then f.nameTag else toLower n := by
  unfold named GoText.astField
  have h := GoText.tagGet_sq (f := f)
  by_cases ht : tagText f = []
  · rw [if_pos ht]
    rw [ht] at h
    dsimp only [Option.getD_none]
    rw [h]
  · rw [if_neg ht]
    dsimp only [Option.getD_some]
    rw [h]

theorem view_named {v : View} (hv : v ∈ viewsOf cat) :
    qualifiedName cat.currentSchema (if viewTag cat.currentSchema v ≠ [] then viewTag cat.currentSchema v
      else toLower (toUpper (noSpace v.viewName))) = (v.viewSchema, v.viewName) := by
  have hf := hfit v hv
  have hn := goName_not hf.name (c := '.') (by decide)
  have hs := hf.schema
  have hplain : ∀ n : Str, '.' ∉ n → qualifiedName cat.currentSchema n = (cat.currentSchema, n) := by
    intro n hn
    unfold qualifiedName
    rw [if_neg hn]
  unfold viewTag
  by_cases hc : (v.viewSchema ≠ [] ∧ v.viewSchema ≠ cat.currentSchema) ∨ needsQuoting v.viewName = true
  · rw [if_pos hc]
    by_cases hv0 : v.viewSchema = []
    · rw [if_pos hv0] at hs
      have hx : (if v.viewSchema ≠ [] then v.viewSchema ++ b!"." ++ v.viewName else v.viewName) = v.viewName :=
        if_neg fun h => h hv0
      rw [hx, if_pos hf.name.1, hplain _ hn, hs, hv0]
    · rw [if_neg hv0] at hs
      have hx : (if v.viewSchema ≠ [] then v.viewSchema ++ b!"." ++ v.viewName else v.viewName) =
        v.viewSchema ++ b!"." ++ v.viewName := if_pos hv0
      rw [hx, if_pos (by simp)]
      have hp : ∀ c ∈ v.viewSchema, (decide (c ≠ '.')) = true := by
        intro c hc
        rw [decide_eq_true_eq]
        rintro rfl
        exact hs.1 hc
      unfold qualifiedName
      rw [if_pos (by simp), List.append_assoc, List.takeWhile_append_of_pos hp, List.dropWhile_append_of_pos hp]
      simp
  · rw [if_neg hc, if_neg (by simp)]
    have hq : needsQuoting v.viewName = false := by
      cases h : needsQuoting v.viewName with
      | false => rfl
      | true => exact absurd (Or.inr h) hc
    rw [toLower_toUpper hf.name hq, hplain _ hn]
    have hcur : cat.currentSchema = v.viewSchema := by
      by_cases hv0 : v.viewSchema = []
      · rw [if_pos hv0] at hs; rw [hs, hv0]
      · by_cases he : v.viewSchema = cat.currentSchema
        · exact he.symm
        · exact absurd (Or.inl ⟨hv0, he⟩) hc
    rw [hcur]

/-- What the struct of a view says: everything is right but the names of columns, which are those of
the fields in lower case. -/
theorem viewSays_eq {v : View} (hv : v ∈ viewsOf cat)
    (hty : ∀ f ∈ viewFieldsOf (dialectOf cat.dialect) v, f.type ∈ fieldTypes) :
    viewSays cat.currentSchema (GoText.astStruct (viewStructOf cat v)) =
      some ((v.viewSchema, v.viewName), (viewColumns (dialectOf cat.dialect) v).map fun e =>
        (toLower (toUpper (noSpace e.1)), e.2)) := by
  unfold viewSays GoText.astStruct viewStructOf
  simp only [List.map_cons]
  rw [if_pos ⟨rfl, rfl⟩, named_tag hfit, view_named hfit hv]
  congr 2
  unfold viewFieldsOf at hty ⊢
  rw [List.map_map, List.map_map]
  refine List.map_congr_left fun e he => ?_
  simp only [Function.comp_apply]
  rw [named_tag hfit, if_neg (by simp)]
  have ht := fieldTypes_ok _ (hty _ (List.mem_map.2 ⟨e, he, rfl⟩))
  have h2 : typeText (GoText.astType e.2) = e.2 := by
    dsimp only at ht
    rcases ht with h | ⟨y, _, h⟩
    · rw [h]; rfl
    · rw [h]
      unfold GoText.astType
      rw [if_neg (by intro e; cases e)]
      rfl
  show (_, typeText (GoText.astType e.2)) = _
  rw [h2]
  rfl

end

/-! ## C87: what the structs say -/

/-- **C87** (partial): if `sqddl views` ends without an error, the structs in the file say what the
views of the database are: the schemas, names, columns and types, in the order of the catalog.

Missing for the full statement: columns whose names need quotation marks, see `views_describe_refuted`;
names that become no identifiers of Go. -/
theorem views_describe_partial {cat : Catalog} (hfit : ∀ v ∈ viewsOf cat, ViewNameFits cat.currentSchema v)
    {sys : RunSystem} (hsys : Trusted sys) {pkg filename : Str} {old : Option Str} {r : RunResult}
    (hrun : viewsRun sys pkg filename (some cat) old = some r) (hok : r.ok = true) (hfile : filename ≠ [])
    (hpkg : Ident (packageName sys pkg filename)) (hne : viewsOf cat ≠ [])
    (hcol : ∀ v ∈ viewsOf cat, ∀ c ∈ v.columns, needsQuoting c = false) :
    ∃ text asts, r.file = some text ∧ GoText.file text = some asts ∧
      asts.map (viewSays cat.currentSchema) = viewFacts cat := by
  unfold viewsRun at hrun
  dsimp only at hrun
  cases hss : readViews cat with
  | none => rw [hss] at hrun; cases hrun
  | some ss =>
    rw [hss, Option.map_some] at hrun
    obtain rfl := Option.some.inj hrun
    obtain ⟨h1, h2⟩ := mapM_forall hss
    have hlen : ss ≠ [] := by
      intro e
      rw [e] at h2
      have h2 := congrArg List.length h2
      simp only [List.map_nil, List.length_nil, List.length_map] at h2
      exact hne (List.length_eq_zero_iff.1 h2.symm)
    have htext : marshalViews ss ≠ [] := structsText_ne (by simpa using hlen)
    obtain ⟨text, h3, h4⟩ := GoText.writeText_ok hsys htext hfile hok hpkg
    refine ⟨text, _, h3, views_read hfit hss hpkg h4, ?_⟩
    unfold viewFacts
    rw [List.map_map]
    refine List.map_congr_left fun v hv => ?_
    obtain ⟨s, hs⟩ := Option.isSome_iff_exists.1 (h1 v hv)
    rw [Function.comp_apply, viewSays_eq hfit hv (viewStruct_eq hs).2]
    congr 2
    conv => rhs; rw [← List.map_id (viewColumns (dialectOf cat.dialect) v)]
    refine List.map_congr_left fun e he => ?_
    have hm := viewColumns_mem he
    rw [toLower_toUpper ((hfit v hv).columns _ hm) (hcol v hv _ hm)]
    rfl

/-- A name that needs quotation marks is not that of its field in lower case. -/
theorem toLower_toUpper_ne {s : Str} (h : GoName s) (hq : needsQuoting s = true) :
    toLower (toUpper (noSpace s)) ≠ s := by
  intro e
  unfold needsQuoting at hq
  rw [Bool.or_eq_true] at hq
  rcases hq with hq | hq
  · have hd := h.2.2.2.1
    cases s with
    | nil => simp at hq
    | cons c s =>
      simp only [List.head?_cons, Option.any_some] at hq
      rw [hd c (by simp)] at hq
      cases hq
  · rw [List.any_eq_true] at hq
    obtain ⟨c, hc, hb⟩ := hq
    rw [← e] at hc
    have e2 : toLower (toUpper (noSpace s)) = s.map fun c => lowerC (upperC (if c = ' ' then '_' else c)) := by
      simp [toLower, toUpper, noSpace]
    rw [e2] at hc
    obtain ⟨x, hx, rfl⟩ := List.mem_map.1 hc
    have := nameChar_all (fun c => (fun c => c == '_' || isDigit c || ('a' ≤ c && c ≤ 'z'))
      (lowerC (upperC (if c = ' ' then '_' else c)))) (by decide +kernel) (goName_char h hx)
    dsimp only at this
    rw [this] at hb
    cases hb

/-- **C87** (refuted): the fields of the columns of a view have no tag for the name, so that the structs
never say what the views are if the name of a column needs quotation marks, as one with a letter in
upper case does. -/
theorem views_describe_refuted {cat : Catalog} (hfit : ∀ v ∈ viewsOf cat, ViewNameFits cat.currentSchema v)
    {v : View} (hv : v ∈ viewsOf cat) {c : Str} (hc : c ∈ v.columns) (hq : needsQuoting c = true)
    {ss : List TableStruct} (hss : readViews cat = some ss) {pkg : Str} (hpkg : Ident pkg) :
    ∃ asts, GoText.file (header pkg ++ marshalViews ss) = some asts ∧
      asts.map (viewSays cat.currentSchema) ≠ viewFacts cat := by
  refine ⟨_, views_read hfit hss hpkg rfl, fun e => ?_⟩
  unfold viewFacts at e
  rw [List.map_map] at e
  have e1 := List.map_inj_left.1 e v hv
  obtain ⟨s, hs⟩ := Option.isSome_iff_exists.1 ((mapM_forall hss).1 v hv)
  rw [Function.comp_apply, viewSays_eq hfit hv (viewStruct_eq hs).2] at e1
  have e2 := (Prod.mk.inj (Option.some.inj e1)).2
  have e3 : ∀ x ∈ viewColumns (dialectOf cat.dialect) v, (toLower (toUpper (noSpace x.1)), x.2) = id x := by
    rw [← List.map_inj_left, List.map_id]
    exact e2
  obtain ⟨i, hi, rfl⟩ := List.getElem_of_mem hc
  have hm : (v.columns[i], i) ∈ v.columns.zipIdx := by
    rw [List.mem_zipIdx_iff_getElem?]
    simp [hi]
  have := e3 _ (List.mem_map.2 ⟨_, hm, rfl⟩)
  exact toLower_toUpper_ne ((hfit v hv).columns _ hc) hq (congrArg Prod.fst this)

/-- A Postgres database with views; `column` is the name of one of the columns. -/
def viewSample (column : Str) : Catalog :=
  { dialect := b!"postgres", currentSchema := b!"public"
    schemas := [
      { schemaName := b!"public"
        views := [{ viewSchema := b!"public", viewName := b!"active_users"
                    columns := [b!"id", column], columnTypes := [b!"INT", b!"TEXT"] }] },
      { schemaName := b!"app"
        views := [{ viewSchema := b!"app", viewName := b!"Daily Totals"
                    columns := [b!"total"], columnTypes := [b!"NUMERIC(10,2)"] }] }] }

theorem viewSample_fits {column : Str} (h : GoName column) :
    ∀ v ∈ viewsOf (viewSample column), ViewNameFits (viewSample column).currentSchema v := by
  intro v hv
  simp only [viewsOf, viewSample, List.flatMap_cons, List.flatMap_nil, List.append_nil, List.mem_append,
    List.mem_cons, List.not_mem_nil, or_false] at hv
  rcases hv with rfl | rfl
  · refine ⟨show GoName b!"active_users" by unfold GoName; decide,
      show '.' ∉ b!"public" ∧ '`' ∉ b!"public" by decide, ?_⟩
    intro c hc
    simp only [List.mem_cons, List.not_mem_nil, or_false] at hc
    rcases hc with rfl | rfl
    · unfold GoName; decide
    · exact h
  · refine ⟨show GoName b!"Daily Totals" by unfold GoName; decide,
      show '.' ∉ b!"app" ∧ '`' ∉ b!"app" by decide, ?_⟩
    intro c hc
    simp only [List.mem_cons, List.not_mem_nil, or_false] at hc
    subst hc
    unfold GoName; decide

example : ∃ r text asts, viewsRun plainSystem b!"db" b!"views.go" (some (viewSample b!"email")) none = some r ∧
    r.file = some text ∧ GoText.file text = some asts ∧
    asts.map (viewSays b!"public") = viewFacts (viewSample b!"email") := by
  obtain ⟨r, hr, hok⟩ : ∃ r, viewsRun plainSystem b!"db" b!"views.go" (some (viewSample b!"email")) none = some r ∧
      r.ok = true := by
    refine ⟨(viewsRun plainSystem b!"db" b!"views.go" (some (viewSample b!"email")) none).getD ⟨none, [], false⟩,
      ?_, ?_⟩ <;> decide +kernel
  obtain ⟨text, asts, h1, h2, h3⟩ := views_describe_partial (viewSample_fits (by unfold GoName; decide))
    plainSystem_trusted hr hok (by decide) (by decide) (by decide) (by decide)
  exact ⟨r, text, asts, hr, h1, h2, h3⟩

example : ∃ ss asts, readViews (viewSample b!"userId") = some ss ∧
    GoText.file (header b!"db" ++ marshalViews ss) = some asts ∧
    asts.map (viewSays b!"public") ≠ viewFacts (viewSample b!"userId") := by
  have hss : (readViews (viewSample b!"userId")).isSome := by decide +kernel
  obtain ⟨ss, hss⟩ := Option.isSome_iff_exists.1 hss
  obtain ⟨asts, h1, h2⟩ := views_describe_refuted (viewSample_fits (column := b!"userId") (by unfold GoName; decide))
    (v := { viewSchema := b!"public", viewName := b!"active_users"
            columns := [b!"id", b!"userId"], columnTypes := [b!"INT", b!"TEXT"] }) (by decide)
    (c := b!"userId") (by decide) (by decide) hss (pkg := b!"db") (by decide)
  exact ⟨ss, asts, hss, h1, h2⟩

/-! ## C88: the structs of views in a file that is read -/

/-- The letters of ASCII. -/
def isAlpha (c : Char) : Bool := ('a' ≤ c && c ≤ 'z') || ('A' ≤ c && c ≤ 'Z')

theorem upper_alpha {s : Str} (h : GoName s) :
    (toUpper (noSpace s)).all (fun c => decide ('A' ≤ c) && decide (c ≤ 'Z')) = s.all isAlpha := by
  unfold toUpper noSpace
  rw [List.map_map, List.all_map]
  have hc : ∀ c ∈ s, nameChar c = true := fun c hc => goName_char h hc
  clear h
  induction s with
  | nil => rfl
  | cons c s ih =>
    rw [List.all_cons, List.all_cons, ih fun x hx => hc x (by simp [hx])]
    congr 1
    have := nameChar_all (fun c => (decide ('A' ≤ upperC (if c = ' ' then '_' else c)) &&
      decide (upperC (if c = ' ' then '_' else c) ≤ 'Z')) == isAlpha c) (by decide +kernel) (hc c (by simp))
    simpa using this

theorem visit_view {cat : Catalog} {v : View} (hn : GoName v.viewName) :
    visitStruct (GoText.astStruct (viewStructOf cat v)) = (none, v.viewName.all isAlpha) := by
  have hty : (viewStructOf cat v).fields =
      { type := b!"sq.ViewStruct", nameTag := viewTag cat.currentSchema v } ::
        viewFieldsOf (dialectOf cat.dialect) v := rfl
  have hv : visitField (GoText.astField { type := b!"sq.ViewStruct", nameTag := viewTag cat.currentSchema v }
      (GoText.astType b!"sq.ViewStruct")) =
      ({ type := b!"sq.ViewStruct", nameTag := viewTag cat.currentSchema v }, false) := by
    unfold visitField GoText.astField
    have h1 := GoText.tagGet_sq
      (f := { type := b!"sq.ViewStruct", nameTag := viewTag cat.currentSchema v })
    have h2 := GoText.tagGet_ddl
      (f := { type := b!"sq.ViewStruct", nameTag := viewTag cat.currentSchema v })
    by_cases ht : tagText { type := b!"sq.ViewStruct", nameTag := viewTag cat.currentSchema v } = []
    · rw [if_pos ht]
      rw [ht] at h1
      have h1' : viewTag cat.currentSchema v = [] := h1.symm
      rw [h1']
      rfl
    · rw [if_neg ht]
      dsimp only
      rw [h1, h2]
      rfl
  unfold visitStruct GoText.astStruct
  rw [hty, List.map_cons]
  simp only [List.isEmpty_cons, Bool.false_eq_true, if_false]
  unfold visitFields
  dsimp only
  rw [hv]
  dsimp only
  rw [if_neg (by decide), if_pos ⟨rfl, Or.inr (by decide)⟩]
  show (none, (toUpper (noSpace v.viewName)).all _ && true) = _
  rw [upper_alpha hn, Bool.and_true]

/-- **C88** (refuted in general): `generate` does not pass over the structs of views.  If the name of a
view has letters only, the file that `sqddl views` has written is refused; this is the case no matter
what else is in the file. -/
theorem view_file_refused_refuted {cat : Catalog} {v : View} (hn : GoName v.viewName)
    (ha : v.viewName.all isAlpha = true) {asts : List AstStruct}
    (hv : GoText.astStruct (viewStructOf cat v) ∈ asts) : visitFile asts = none := by
  unfold visitFile
  dsimp only
  rw [if_pos]
  rw [List.any_eq_true]
  exact ⟨_, List.mem_map.2 ⟨_, hv, rfl⟩, by rw [visit_view hn]; exact ha⟩

/-- **C88**: otherwise, if the name of every view has an underscore, a space or a digit in it, `generate`
passes over them: the tables read are those of the rest of the file. -/
theorem view_file_skipped {cat : Catalog} {vs : List View} (hn : ∀ v ∈ vs, GoName v.viewName)
    (ha : ∀ v ∈ vs, v.viewName.all isAlpha = false) (asts : List AstStruct) :
    visitFile (vs.map (fun v => GoText.astStruct (viewStructOf cat v)) ++ asts) = visitFile asts := by
  unfold visitFile
  dsimp only
  rw [List.map_append, List.any_append, List.filterMap_append]
  have h1 : (vs.map fun v => GoText.astStruct (viewStructOf cat v)).map visitStruct =
      vs.map fun _ => ((none, false) : Option TableStruct × Bool) := by
    rw [List.map_map]
    refine List.map_congr_left fun v hv => ?_
    rw [Function.comp_apply, visit_view (hn v hv), ha v hv]
  have h2 : (vs.map fun _ => ((none, false) : Option TableStruct × Bool)).any (·.2) = false := by
    rw [List.any_eq_false]
    intro x hx
    obtain ⟨_, _, rfl⟩ := List.mem_map.1 hx
    simp
  have h3 : (vs.map fun _ => ((none, false) : Option TableStruct × Bool)).filterMap (·.1) = [] := by
    rw [List.filterMap_eq_nil_iff]
    intro x hx
    obtain ⟨_, _, rfl⟩ := List.mem_map.1 hx
    rfl
  rw [h1, h2, h3]
  rfl

/-- The file of `sqddl views` for a database, as `generate` reads it. -/
theorem view_file_read {cat : Catalog} (hfit : ∀ v ∈ viewsOf cat, ViewNameFits cat.currentSchema v)
    {ss : List TableStruct} (hss : readViews cat = some ss) {pkg : Str} (hpkg : Ident pkg) {text : Str}
    (ht : SameTokens text (header pkg ++ marshalViews ss)) :
    (GoText.file text).bind visitFile =
      if (viewsOf cat).any (fun v => v.viewName.all isAlpha) then none else some [] := by
  rw [views_read hfit hss hpkg ht, Option.bind_some]
  by_cases h : (viewsOf cat).any (fun v => v.viewName.all isAlpha) = true
  · rw [if_pos h]
    obtain ⟨v, hv, ha⟩ := List.any_eq_true.1 h
    exact view_file_refused_refuted (hfit v hv).name ha (List.mem_map.2 ⟨v, hv, rfl⟩)
  · rw [if_neg h]
    rw [Bool.not_eq_true, List.any_eq_false] at h
    have := view_file_skipped (cat := cat) (fun v hv => (hfit v hv).name)
      (fun v hv => by simpa using h v hv) []
    rw [List.append_nil] at this
    rw [this]
    rfl

example : visitFile [GoText.astStruct (viewStructOf (viewSample b!"id") { viewName := b!"totals" })] = none :=
  view_file_refused_refuted (by unfold GoName; decide) (by decide) (List.mem_singleton.2 rfl)

example : ((readViews (viewSample b!"email")).bind fun ss =>
    (GoText.file (header b!"db" ++ marshalViews ss)).bind visitFile).map (·.length) = some 0 := by
  decide +kernel

end Sqddl.Structs
