import Verif.Lemmas.StructForm

/-!
# The structs of a table pass through the text of a file
-/

namespace Sqddl.Structs
open Go StructSpec ModifierSpec

/-! ## Characters -/

theorem ascii_all (P : Char → Bool) (h : (List.range 128).all (fun n => P (Char.ofNat n)) = true)
    {c : Char} (hc : c.toNat < 128) : P c = true := by
  rw [List.all_eq_true] at h
  have := h c.toNat (List.mem_range.2 hc)
  rwa [Char.ofNat_toNat] at this

theorem le_toNat {a b : Char} (h : a ≤ b) : a.toNat ≤ b.toNat := h

theorem nameChar_ascii {c : Char} (h : nameChar c = true) : c.toNat < 128 := by
  simp only [nameChar, isDigit, Bool.or_eq_true, beq_iff_eq, Bool.and_eq_true, decide_eq_true_eq] at h
  rcases h with (((rfl | rfl) | h) | h) | h
  · decide
  · decide
  · exact Nat.lt_of_le_of_lt (le_toNat h.2) (by decide)
  · exact Nat.lt_of_le_of_lt (le_toNat h.2) (by decide)
  · exact Nat.lt_of_le_of_lt (le_toNat h.2) (by decide)

theorem nameChar_all (P : Char → Bool)
    (h : (List.range 128).all (fun n => !nameChar (Char.ofNat n) || P (Char.ofNat n)) = true)
    {c : Char} (hc : nameChar c = true) : P c = true := by
  have := ascii_all (fun c => !nameChar c || P c) h (nameChar_ascii hc)
  simpa [hc] using this

theorem goName_ident {s : Str} (h : GoName s) : isIdent (toUpper (noSpace s)) = true := by
  unfold isIdent toUpper noSpace
  rw [Bool.and_eq_true]
  constructor
  · have h3 := h.2.2.2.1
    cases s with
    | nil => exact absurd rfl h.1
    | cons c s =>
      have hc := goName_char h (c := c) (by simp)
      have hd : isDigit c = false := h3 c (by simp)
      have := nameChar_all (fun c => isDigit c || isLetter (upperC (if c = ' ' then '_' else c)))
        (by decide +kernel) hc
      simpa [hd] using this
  · rw [List.all_eq_true]
    intro c hc
    simp only [List.mem_map] at hc
    obtain ⟨b, ⟨a, ha, rfl⟩, rfl⟩ := hc
    exact nameChar_all
      (fun c => isLetter (upperC (if c = ' ' then '_' else c)) || isDigit (upperC (if c = ' ' then '_' else c)))
      (by decide +kernel) (goName_char h ha)

theorem toUpper_ne {s : Str} (h : GoName s) : toUpper (noSpace s) ≠ [] ∧ toUpper (noSpace s) ≠ b!"_" := by
  constructor
  · intro e
    have := congrArg List.length e
    simp [toUpper, noSpace] at this
    exact h.1 this
  · intro e
    have hl := congrArg List.length e
    simp [toUpper, noSpace] at hl
    match s, hl with
    | [c], _ =>
      have hc := goName_char h (c := c) (by simp)
      have := nameChar_all (fun c => c == ' ' || c == '_' || upperC (if c = ' ' then '_' else c) != '_')
        (by decide +kernel) hc
      have h1 : c ≠ ' ' := fun e => h.2.2.1 (by rw [e])
      have h2 : c ≠ '_' := fun e => h.2.1 (by rw [e])
      simp [toUpper, noSpace] at e
      simp [h1, h2] at this
      simp [h1] at e
      exact this e

/-- A name that is not quoted is the lower case of the name of the field. -/
theorem toLower_toUpper {s : Str} (h : GoName s) (hq : needsQuoting s = false) :
    toLower (toUpper (noSpace s)) = s := by
  unfold needsQuoting at hq
  rw [Bool.or_eq_false_iff] at hq
  have hq := hq.2
  rw [List.any_eq_false] at hq
  have : toLower (toUpper (noSpace s)) = s.map fun c => lowerC (upperC (if c = ' ' then '_' else c)) := by
    simp [toLower, toUpper, noSpace]
  rw [this]
  conv => rhs; rw [← List.map_id s]
  apply List.map_congr_left
  intro c hc
  have h1 := hq c hc
  have := nameChar_all (fun c => !(c == '_' || isDigit c || ('a' ≤ c && c ≤ 'z')) ||
      lowerC (upperC (if c = ' ' then '_' else c)) == c) (by decide +kernel) (goName_char h hc)
  rw [Bool.not_eq_true, Bool.not_eq_false'] at h1
  rw [h1] at this
  simpa using this

/-! ## Clean modifiers -/

/-- Text without braces and backquotes. -/
def Bare (s : Str) : Prop := ∀ c ∈ s, c ∉ ['{', '}', '`']

instance (s : Str) : Decidable (Bare s) := by unfold Bare; infer_instance

theorem Bare.tag {s : Str} (h : Bare s) : TagValue s := by
  refine ⟨⟨Braced.plain fun c hc hm => h c hc ?_, ?_⟩, fun hm => h _ hm (by simp)⟩
  · simp at hm ⊢; rcases hm with e | e <;> simp [e]
  · intro _ e
    cases s with
    | nil => simp at e
    | cons c s => simp at e; exact h c (by simp) (by simp [e])

theorem Bare.append {a b : Str} (ha : Bare a) (hb : Bare b) : Bare (a ++ b) := by
  intro c hc
  rcases List.mem_append.1 hc with h | h
  · exact ha c h
  · exact hb c h

theorem goName_bare {s : Str} (h : GoName s) : Bare s := by
  intro c hc hm
  have := goName_char h hc
  simp only [List.mem_cons, List.not_mem_nil, or_false] at hm
  rcases hm with rfl | rfl | rfl <;> revert this <;> decide

theorem join_bare {l : List Str} (h : ∀ s ∈ l, Bare s) : Bare (join b!"," l) := by
  induction l with
  | nil => intro c hc; simp [join] at hc
  | cons a l ih =>
    cases l with
    | nil => exact h a (by simp)
    | cons b l =>
      rw [join]
      exact ((h a (by simp)).append (by decide)).append (ih fun s hs => h s (by simp [hs]))

mutual
/-- Modifiers that can be written in a tag: printable, without backquotes, and with names of more
than one character. -/
def Clean : Modifier → Prop
  | .mk d n raw v subs => d = [] ∧ (PlainName n ∧ '`' ∉ n ∧ 1 < n.length) ∧ TagValue raw ∧ TagValue v ∧
      (raw ≠ [] → v = [] ∧ subs = []) ∧ CleanAll subs
/-- every modifier of a list is clean -/
def CleanAll : List Modifier → Prop
  | [] => True
  | m :: ms => Clean m ∧ CleanAll ms
end

mutual
theorem Clean.printable : ∀ m : Modifier, Clean m → Printable m
  | .mk d n raw v subs, h => by
    rw [Clean] at h
    rw [Printable]
    exact ⟨h.1, h.2.1.1, h.2.2.1.1, h.2.2.2.1.1, h.2.2.2.2.1, CleanAll.printable subs h.2.2.2.2.2⟩
theorem CleanAll.printable : ∀ ms : List Modifier, CleanAll ms → AllPrintable ms
  | [], _ => trivial
  | m :: ms, h => by
    rw [CleanAll] at h
    exact ⟨Clean.printable m h.1, CleanAll.printable ms h.2⟩
end

theorem Clean.name {m : Modifier} (h : Clean m) : PlainName m.name ∧ '`' ∉ m.name ∧ 1 < m.name.length := by
  cases m; rw [Clean] at h; exact h.2.1

theorem textOf_tick {n c : Str} (hn : '`' ∉ n) (hc : '`' ∉ c) : '`' ∉ textOf n c := by
  unfold textOf
  split
  · exact hn
  · split <;> simp [hn, hc]

mutual
theorem content_tick : ∀ m : Modifier, Clean m → '`' ∉ content m
  | .mk d n raw v subs, h => by
    rw [Clean] at h
    rw [content]
    have hs := contents_tick subs h.2.2.2.2.2
    have hv := h.2.2.2.1.2
    split
    · exact h.2.2.1.2
    · split
      · simp
      · rw [List.mem_append, not_or]
        refine ⟨?_, hs⟩
        split
        · decide
        · split <;> simp [hv]
theorem contents_tick : ∀ ms : List Modifier, CleanAll ms → '`' ∉ contents ms
  | [], _ => by simp [contents]
  | m :: ms, h => by
    rw [CleanAll] at h
    rw [contents]
    have h1 := textOf_tick h.1.name.2.1 (content_tick m h.1)
    have h2 := contents_tick ms h.2
    simp [h1, h2]
end

theorem textOf_length {n c : Str} (hn : 1 < n.length) : 1 < (textOf n c).length := by
  unfold textOf
  split
  · exact hn
  · split <;> simp <;> omega

/-- Clean modifiers are read back with their values as raw values. -/
theorem clean_roundtrip {ms : List Modifier} (h : CleanAll ms) :
    newModifiers (printModifiers ms) = (ms.map flat, true) ∧ '`' ∉ printModifiers ms := by
  have hp := CleanAll.printable ms h
  constructor
  · refine modifiers_roundtrip_partial ms hp fun m hm => Or.inr ?_
    cases ms with
    | nil => simp at hm
    | cons a l =>
      simp at hm; subst hm
      rw [CleanAll] at h
      exact textOf_length h.1.name.2.2
  · cases ms with
    | nil => simp [printModifiers, writeBufs]
    | cons m ms =>
      rw [CleanAll] at h
      have h1 := textOf_length (c := content m) h.1.name.2.2
      have h2 := textOf_last (c := content m) h.1.name.1
      unfold printModifiers
      rw [writeBufs, writeBuf_eq m hp.1]
      simp only [List.length_nil, Nat.not_lt_zero, gt_iff_lt, false_and, if_false, List.nil_append]
      rw [writeBufs_eq ms hp.2 _ h1 h2.1, List.mem_append, not_or]
      exact ⟨textOf_tick h.1.name.2.1 (content_tick m h.1), contents_tick ms h.2⟩

theorem cleanAll_iff {ms : List Modifier} : CleanAll ms ↔ ∀ m ∈ ms, Clean m := by
  induction ms with
  | nil => simp [CleanAll]
  | cons m ms ih => simp [CleanAll, ih]

/-- The names of modifiers. -/
def ModName (n : Str) : Prop := PlainName n ∧ '`' ∉ n ∧ 1 < n.length

instance (n : Str) : Decidable (ModName n) := by unfold ModName PlainName; infer_instance

theorem tag_nil : TagValue [] := ⟨⟨.nil, by simp⟩, by simp⟩

theorem clean_raw {n v : Str} (hn : ModName n) (hv : TagValue v) : Clean (raw n v) := by
  rw [raw, Clean]; exact ⟨rfl, hn, hv, tag_nil, fun _ => ⟨rfl, rfl⟩, by simp [CleanAll]⟩

theorem clean_mk {n v : Str} {subs : List Modifier} (hn : ModName n) (hv : TagValue v)
    (hs : ∀ m ∈ subs, Clean m) : Clean (.mk [] n [] v subs) := by
  rw [Clean]; exact ⟨rfl, hn, tag_nil, hv, fun h => absurd rfl h, cleanAll_iff.2 hs⟩

theorem clean_flag {n : Str} (hn : ModName n) : Clean (flag n) :=
  clean_mk hn tag_nil (by simp)

theorem clean_val {n v : Str} (hn : ModName n) (hv : TagValue v) : Clean (val n v) :=
  clean_mk hn hv (by simp)

theorem clean_noValue {m : Modifier} (h : Clean m) : Clean (noValue m) := by
  cases m with
  | mk d n r v subs =>
    rw [Clean] at h
    rw [noValue, Clean]
    exact ⟨h.1, h.2.1, h.2.2.1, tag_nil, fun hr => ⟨rfl, (h.2.2.2.2.1 hr).2⟩, h.2.2.2.2.2⟩

/-! ## The modifiers of a table are clean -/

theorem clean_rule {n rule : Str} (hn : ModName n)
    (hr : rule ∈ [[], b!"NO ACTION", b!"RESTRICT", b!"CASCADE", b!"SET NULL", b!"SET DEFAULT"]) :
    ∀ m ∈ ruleModifier n rule, Clean m := by
  intro m hm
  unfold ruleModifier at hm
  split at hm
  · rw [List.mem_singleton] at hm
    subst hm
    refine clean_val hn (Bare.tag ?_)
    simp only [List.mem_cons, List.not_mem_nil, or_false] at hr
    rcases hr with rfl | rfl | rfl | rfl | rfl | rfl <;> decide
  · simp at hm

theorem clean_defer (k : Constraint) : ∀ m ∈ deferModifier k, Clean m := by
  intro m hm
  unfold deferModifier at hm
  split at hm
  · rw [List.mem_singleton] at hm
    subst hm
    split <;> exact clean_flag (by decide)
  · simp at hm

theorem clean_index {d : Dialect} {t : Table} {x : Index} (h : IndexFits d t x)
    (hgo : ∀ n ∈ x.columns, GoName n) : Clean (indexModifier x) := by
  unfold indexModifier
  refine clean_mk (by decide) (Bare.tag (join_bare fun n hn => goName_bare (hgo n hn))) fun m hm => ?_
  rcases List.mem_append.1 hm with hm | hm
  · split at hm
    · rw [List.mem_singleton] at hm; subst hm; exact clean_flag (by decide)
    · simp at hm
  · split at hm
    · rename_i hx
      rw [List.mem_singleton] at hm; subst hm
      exact clean_raw (by decide) (h.type hx.1 hx.2).1
    · simp at hm

/-- What the text of a foreign key needs of the names. -/
structure RefNames (cat : Catalog) (k : Constraint) : Prop where
  table : GoName k.referencesTable
  columns : k.referencesColumns ≠ [] ∧ ∀ n ∈ k.referencesColumns, GoName n
  schema : ∀ c ∈ k.referencesSchema, c ∉ ['.', '`', '{', '}']

theorem refNames {isFloat : Str → Bool} {cat : Catalog} (hfit : Fits isFloat cat) {d : Dialect}
    {k : Constraint} (h : RefFits d cat k) (hk : k.columns ≠ []) : RefNames cat k := by
  obtain ⟨s, hs, e, t, ht, hn, hc⟩ := h.target
  have hf := hfit.tables s hs t ht
  refine ⟨hn ▸ hf.name, ⟨?_, fun n hm => columnName_go hf (hc n hm)⟩, ?_⟩
  · intro h0
    have := h.length
    rw [h0] at this
    exact hk (List.length_eq_zero_iff.1 this.symm)
  · intro c hcm
    have hne : k.referencesSchema ≠ [] := by rintro e0; rw [e0] at hcm; simp at hcm
    rw [resolve, if_neg hne] at e
    have hts : t.tableSchema = k.referencesSchema := by
      rw [← e]; exact (hfit.ok.ok s hs).schemaName t ht
    have := hf.schema
    rw [hts, if_neg hne] at this
    exact this c hcm

theorem references_bare {cat : Catalog} {k : Constraint} (h : RefNames cat k) :
    Bare (referencesText cat.currentSchema k) := by
  unfold referencesText
  refine Bare.append (Bare.append ?_ (goName_bare h.table)) ?_
  · split
    · refine Bare.append (fun c hc hm => h.schema c hc ?_) (by decide)
      simp only [List.mem_cons, List.not_mem_nil, or_false] at hm ⊢
      rcases hm with e | e | e <;> simp [e]
    · decide
  · split
    · decide
    · exact Bare.append (by decide) (join_bare fun n hn => goName_bare (h.columns.2 n hn))

section
variable {isFloat : Str → Bool} {d : Dialect} {cat : Catalog} {t : Table}
variable (hf : TableFits isFloat d cat t) (href : ∀ k ∈ keysOf t, k.constraintType = FOREIGN_KEY → RefNames cat k)
include hf href

theorem clean_subs {k : Constraint} (hk : k ∈ keysOf t) : ∀ m ∈ keySubs cat.currentSchema k, Clean m := by
  unfold keySubs
  split
  · rename_i hfk
    have hr := (hf.keys k hk).ref hfk
    intro m hm
    simp only [List.mem_cons, List.cons_append, List.mem_append] at hm
    rcases hm with rfl | (hm | hm) | hm
    · exact clean_raw (by decide) (references_bare (href k hk hfk)).tag
    · exact clean_rule (by decide) hr.update m hm
    · exact clean_rule (by decide) hr.delete m hm
    · exact clean_defer k m hm
  · exact clean_defer k

omit href in
theorem clean_indexOf {x : Index} (hx : x ∈ t.indexes) : Clean (indexModifier x) :=
  clean_index (hf.indexes x hx) (indexColumns_go hf hx).2

theorem kindName_mod (s : Str) : ModName (kindName s) := by
  unfold kindName
  split
  · decide
  · split <;> decide

theorem clean_full {k : Constraint} (hk : k ∈ keysOf t) :
    Clean (fullMod cat.currentSchema t.indexes k) := by
  have hv : TagValue (join b!"," k.columns) :=
    (join_bare fun n hn => goName_bare ((keyColumns_go hf hk).2 n hn)).tag
  unfold fullMod addIndexes
  split
  · refine clean_mk (kindName_mod hf href _) hv fun m hm => ?_
    rcases List.mem_append.1 hm with hm | hm
    · exact clean_subs hf href hk m hm
    · obtain ⟨x, hx, rfl⟩ := List.mem_map.1 hm
      obtain ⟨y, hy, rfl⟩ := List.mem_map.1 (List.mem_filter.1 hx).1
      exact clean_noValue (clean_indexOf hf hy)
  · exact clean_mk (kindName_mod hf href _) hv (clean_subs hf href hk)

theorem clean_asReferences {k : Constraint} (hk : k ∈ keysOf t) (hfk : k.constraintType = FOREIGN_KEY) :
    Clean (asReferences (fullMod cat.currentSchema t.indexes k)) := by
  have h := clean_full hf href hk
  have e : fullMod cat.currentSchema t.indexes k = .mk [] b!"foreignkey" [] (join b!"," k.columns)
      (keySubs cat.currentSchema k ++
        ((t.indexes.map indexModifier).filter fun x => x.value == join b!"," k.columns).map noValue) := by
    unfold fullMod addIndexes
    rw [if_pos (by rw [keyMod, hfk]; rfl)]
    rw [keyMod, hfk]; rfl
  have e2 : keySubs cat.currentSchema k = raw b!"references" (referencesText cat.currentSchema k) ::
      (ruleModifier b!"onupdate" k.updateRule ++ ruleModifier b!"ondelete" k.deleteRule ++ deferModifier k) := by
    unfold keySubs; rw [if_pos hfk]; simp
  rw [e, Clean] at h
  rw [e, asReferences, e2]
  refine clean_mk (by decide) ?_ fun m hm => ?_
  · exact (references_bare (href k hk hfk)).tag
  · have := cleanAll_iff.1 h.2.2.2.2.2 m
    rw [e2] at this
    apply this
    simp only [Modifier.subs, List.cons_append, List.tail_cons] at hm
    rw [List.cons_append]
    exact List.mem_cons_of_mem _ hm

omit hf href in
theorem unwrap_tag {s : Str} (h : DefaultFits isFloat d s) : TagValue (unwrapBrackets s) := by
  rcases h with rfl | ⟨-, h1, h2⟩ | ⟨-, h1, -, h2, -⟩ | ⟨-, e, rfl, h0, h1, -, h2⟩
  · exact tag_nil
  · rw [unwrapBrackets, if_neg]; exact h1
    simpa [wrappedInBrackets] using h2
  · rw [unwrapBrackets, if_neg]; exact h1
    simpa [wrappedInBrackets] using h2
  · rw [unwrapBrackets, if_pos]
    · simpa using h1
    · have : ('(' :: e ++ [')']).getLast? = some ')' := by rw [List.getLast?_append]; rfl
      rw [wrappedInBrackets, this]; rfl

theorem clean_column {c : Column} (hc : c ∈ t.columns) (ty : Str) :
    CleanAll (columnMods d cat t ty c) := by
  have hcf := hf.columns c hc
  have hkey : ∀ ty n, ∀ k ∈ keysOn t ty n, k ∈ keysOf t ∧ k.constraintType = ty := by
    intro ty n k hk
    obtain ⟨h1, h2⟩ := List.mem_filter.1 hk
    rw [Bool.and_eq_true] at h2
    exact ⟨h1, eq_of_beq h2.1⟩
  rw [cleanAll_iff]
  intro m hm
  unfold columnMods at hm
  simp only [List.mem_append] at hm
  rcases hm with (((((((((((hm | hm) | hm) | hm) | hm) | hm) | hm) | hm) | hm) | hm) | hm) | hm)
  · unfold typeMods at hm
    split at hm
    · rw [List.mem_singleton] at hm; subst hm; exact clean_raw (by decide) hcf.type.tag
    · simp at hm
  · split at hm
    · rw [List.mem_singleton] at hm; subst hm; exact clean_flag (by decide)
    · simp at hm
  · obtain ⟨k, hk, rfl⟩ := List.mem_map.1 hm
    exact clean_noValue (clean_full hf href (hkey _ _ k hk).1)
  · obtain ⟨k, hk, rfl⟩ := List.mem_map.1 hm
    exact clean_noValue (clean_full hf href (hkey _ _ k hk).1)
  · obtain ⟨k, hk, rfl⟩ := List.mem_map.1 hm
    exact clean_asReferences hf href (hkey _ _ k hk).1 (hkey _ _ k hk).2
  · unfold autoModifier at hm
    split at hm
    · split at hm
      · rw [List.mem_singleton] at hm; subst hm; exact clean_flag (by decide)
      · rw [List.mem_singleton] at hm; subst hm; exact clean_flag (by decide)
      · simp at hm
    · simp at hm
  · unfold identityModifier at hm
    split at hm
    · split at hm
      · rw [List.mem_singleton] at hm; subst hm; exact clean_flag (by decide)
      · split at hm
        · rw [List.mem_singleton] at hm; subst hm; exact clean_flag (by decide)
        · simp at hm
    · split at hm
      · rw [List.mem_singleton] at hm; subst hm; exact clean_flag (by decide)
      · simp at hm
    · simp at hm
  · unfold defaultModifier at hm
    split at hm
    · rw [List.mem_singleton] at hm; subst hm; exact clean_raw (by decide) (unwrap_tag hcf.default)
    · simp at hm
  · split at hm
    · rw [List.mem_singleton] at hm; subst hm; exact clean_flag (by decide)
    · simp at hm
  · split at hm
    · rw [List.mem_singleton] at hm; subst hm; exact clean_raw (by decide) hcf.collation
    · simp at hm
  · split at hm
    · obtain ⟨x, hx, rfl⟩ := List.mem_map.1 hm
      exact clean_noValue (clean_indexOf hf (List.mem_filter.1 hx).1)
    · simp at hm
  · split at hm
    · rw [List.mem_singleton] at hm; subst hm; exact clean_flag (by decide)
    · simp at hm

/-- The field as it is read from a file. -/
def flatField (f : StructField) : StructField := { f with modifiers := f.modifiers.map flat }

omit hf href in
theorem fieldThroughText_eq {f : StructField} (hn : f.name = [] ∨ isIdent f.name = true)
    (ht : '`' ∉ f.nameTag) (hm : CleanAll f.modifiers) : fieldThroughText f = some (flatField f) := by
  unfold fieldThroughText
  have h := clean_roundtrip hm
  dsimp only
  rw [if_neg, h.1, if_pos rfl]
  · rfl
  · rintro (⟨h1, h2⟩ | h1 | h1)
    · rcases hn with hn | hn
      · exact h1 hn
      · rw [hn] at h2; simp at h2
    · exact ht h1
    · exact h.2 h1

omit href in
theorem tableTag_tick : '`' ∉ tableTag cat.currentSchema t := by
  have hn := goName_not hf.name (c := '`') (by decide)
  have hs := hf.schema
  unfold tableTag
  split
  · split
    · rename_i h0
      rw [if_neg h0] at hs
      simp only [List.mem_append, not_or]
      exact ⟨⟨fun hm => hs _ hm (by simp), by decide⟩, hn⟩
    · exact hn
  · simp

/-- The structs with the fields as they are read from a file. -/
def flatStruct (s : TableStruct) : TableStruct := { s with fields := s.fields.map flatField }

theorem struct_throughText :
    (structOf d cat t).fields.mapM fieldThroughText = some ((structOf d cat t).fields.map flatField) := by
  refine mapM_some fun f hm => ?_
  simp only [structOf, List.cons_append, List.mem_cons, List.mem_append] at hm
  rcases hm with rfl | hm | hm | hm
  · refine fieldThroughText_eq (Or.inl rfl) (tableTag_tick hf) ?_
    rw [cleanAll_iff]
    intro m hm
    obtain ⟨k, hk, rfl⟩ := List.mem_map.1 hm
    exact clean_full hf href (List.mem_filter.1 hk).1
  · obtain ⟨c, hc, rfl⟩ := List.mem_map.1 hm
    have hn := (hf.columns c hc).name
    refine fieldThroughText_eq (Or.inr (goName_ident hn)) ?_ (clean_column hf href hc _)
    show '`' ∉ (if needsQuoting c.columnName then c.columnName else [])
    split
    · exact goName_not hn (by decide)
    · simp
  · obtain ⟨k, hk, rfl⟩ := List.mem_map.1 hm
    refine fieldThroughText_eq (Or.inr (show isIdent b!"_" = true by decide)) (List.not_mem_nil) ?_
    rw [cleanAll_iff]
    intro m hm
    simp only [blankField, List.mem_singleton] at hm
    subst hm
    exact clean_full hf href (List.mem_filter.1 hk).1
  · obtain ⟨x, hx, rfl⟩ := List.mem_map.1 hm
    refine fieldThroughText_eq (Or.inr (show isIdent b!"_" = true by decide)) (List.not_mem_nil) ?_
    rw [cleanAll_iff]
    intro m hm
    simp only [blankField, List.mem_singleton] at hm
    subst hm
    exact clean_indexOf hf (List.mem_filter.1 hx).1

omit href in
theorem struct_hasColumn : hasColumn (structOf d cat t) = true := by
  unfold hasColumn
  cases hcs : t.columns with
  | nil => exact absurd hcs hf.hasColumn
  | cons c l =>
    have hc : c ∈ t.columns := by rw [hcs]; simp
    rw [List.any_eq_true]
    refine ⟨columnFieldOf d cat t c, ?_, ?_⟩
    · simp only [structOf, List.cons_append, List.mem_cons, List.mem_append]
      exact Or.inr (Or.inl (List.mem_map_of_mem hc))
    · have := toUpper_ne (hf.columns c hc).name
      simp [columnFieldOf, this]

end

/-- The structs of a database that pass through the text of a file. -/
theorem throughText_eq {isFloat : Str → Bool} {cat : Catalog} (hfit : Fits isFloat cat) :
    (readCatalog cat).bind throughText =
      some ((tablesOf cat).map fun t => flatStruct (structOf (dialectOf cat.dialect) cat t)) := by
  have hmem : ∀ t ∈ tablesOf cat, TableFits isFloat (dialectOf cat.dialect) cat t ∧ CatalogSpec.TableOk t := by
    intro t ht
    obtain ⟨s, hs, hts⟩ := List.mem_flatMap.1 ht
    exact ⟨hfit.tables s hs t hts, (hfit.ok.ok s hs).ok t hts⟩
  have hread : readCatalog cat = some ((tablesOf cat).map (structOf (dialectOf cat.dialect) cat)) :=
    mapM_some fun t ht => tableStruct_form (hmem t ht).1 (hmem t ht).2
  rw [hread, Option.bind_some]
  unfold throughText
  rw [List.filter_eq_self.2]
  · rw [List.mapM_map]
    refine mapM_some fun t ht => ?_
    have hf := (hmem t ht).1
    have href : ∀ k ∈ keysOf t, k.constraintType = FOREIGN_KEY → RefNames cat k :=
      fun k hk hfk => refNames hfit ((hf.keys k hk).ref hfk) (hf.keys k hk).columns.1
    simp only [Function.comp_apply]
    rw [if_pos (show isIdent (structOf (dialectOf cat.dialect) cat t).name = true from goName_ident hf.name),
      struct_throughText hf href]
    rfl
  · intro s hs
    obtain ⟨t, ht, rfl⟩ := List.mem_map.1 hs
    exact struct_hasColumn (hmem t ht).1

end Sqddl.Structs
