import Verif.Spec.StructFile
import Verif.Lemmas.GoText
import Verif.Lemmas.StructCatalog
import Verif.Props.Types

/-! Lemmas about files of structs. -/

namespace GoText
open Go Sqddl
open Sqddl.Structs StructSpec

/-! ## The first lines -/

/-- The lexer with other tokens before. -/
def shift (base : List Tok) (l : Lexer) : Lexer := ⟨l.toks ++ base, l.mode⟩

theorem endsLine_append {base : List Tok} (hb : endsLine base = false) (ts : List Tok) :
    endsLine (ts ++ base) = endsLine ts := by
  cases ts with
  | nil => simpa [endsLine] using hb
  | cons t ts => cases t <;> rfl

theorem newline_append {base : List Tok} (hb : endsLine base = false) (ts : List Tok) :
    newline (ts ++ base) = newline ts ++ base := by
  unfold newline
  rw [endsLine_append hb]
  split <;> rfl

theorem between_shift {base : List Tok} (hb : endsLine base = false) (ts : List Tok) (c : Char) :
    between (ts ++ base) c = (between ts c).map (shift base) := by
  unfold between
  rw [newline_append hb]
  repeat' split
  all_goals first | rfl | simp [shift]

theorem step_shift {base : List Tok} (hb : endsLine base = false) (l : Lexer) (c : Char) :
    step (shift base l) c = (step l c).map (shift base) := by
  obtain ⟨ts, m⟩ := l
  unfold step
  cases m with
  | idle => exact between_shift hb ts c
  | word w =>
    simp only [shift]
    split
    · rfl
    · rw [← List.cons_append]; exact between_shift hb _ c
  | raw s =>
    simp only [shift]
    repeat' split
    all_goals rfl
  | str s =>
    simp only [shift]
    repeat' split
    all_goals rfl

theorem run_shift {base : List Tok} (hb : endsLine base = false) : ∀ (s : Str) (l : Lexer),
    s.foldlM step (shift base l) = (s.foldlM step l).map (shift base)
  | [], l => rfl
  | c :: s, l => by
    rw [List.foldlM_cons, List.foldlM_cons, step_shift hb]
    cases step l c with
    | none => rfl
    | some l' => exact run_shift hb s l'

theorem finish_shift {base : List Tok} (hb : endsLine base = false) (l : Lexer) :
    finish (shift base l) = (finish l).map (base.reverse ++ ·) := by
  obtain ⟨ts, m⟩ := l
  unfold finish shift
  cases m with
  | idle => simp [newline_append hb]
  | word w =>
    have := newline_append hb (wordTok w :: ts)
    rw [List.cons_append] at this
    simp [this]
  | raw s => rfl
  | str s => rfl

theorem lex_header {pkg : Str} (hp : Ident pkg) (s : Str) :
    lex (header pkg ++ s) = (lex s).map (headToks pkg ++ ·) := by
  unfold lex
  have e : header pkg ++ s = b!"package " ++ (pkg ++ '\n' ::
      (b!"\nimport \"github.com/bokwoon95/sq\"\n\n" ++ s)) := by
    simp [header]
  have h1 : (b!"package ").foldlM step {} = some ⟨[.kwPackage], .idle⟩ := rfl
  have h2 : ∀ ts, (b!"\nimport \"github.com/bokwoon95/sq\"\n\n").foldlM step ⟨.semi :: ts, .idle⟩ =
      some ⟨.semi :: .str b!"github.com/bokwoon95/sq" :: .kwImport :: .semi :: ts, .idle⟩ :=
    fun _ => rfl
  rw [e, run_append h1, run_word_then _ hp (c := '\n') (by decide) rfl]
  show Option.bind (List.foldlM step ⟨.semi :: _, .idle⟩ _) finish = _
  rw [run_append (h2 _)]
  have h3 := run_shift (base := (headToks pkg).reverse) rfl s {}
  rw [show (⟨.semi :: .str b!"github.com/bokwoon95/sq" :: .kwImport :: .semi :: .word pkg :: [.kwPackage], .idle⟩ : Lexer)
    = shift (headToks pkg).reverse {} from rfl, h3]
  cases s.foldlM step {} with
  | none => rfl
  | some l =>
    simp only [Option.map_some, Option.bind_some]
    rw [finish_shift rfl, List.reverse_reverse]

theorem sameTokens_header {pkg a b : Str} (hp : Ident pkg) (h : SameTokens a b) :
    SameTokens (header pkg ++ a) (header pkg ++ b) := by
  unfold SameTokens at *
  rw [lex_header hp, lex_header hp, h]

/-! ## Names -/

theorem toUpper_not_keyword (s : Str) : toUpper s ∉ keywords := by
  intro h
  have e : toUpper (toUpper s) = toUpper s := by
    unfold toUpper; rw [List.map_map]; exact List.map_congr_left fun c _ => upperC_upperC c
  revert h e
  generalize toUpper s = w
  intro h e
  have : ∀ w ∈ keywords, toUpper w ≠ w := by decide +kernel
  exact this w h e

theorem ident_of {s : Str} (h : isIdent s = true) (hk : s ∉ keywords) : Ident s := by
  have e : ∀ c, isLetter c = Letter c := fun c => by unfold isLetter Letter; simp
  unfold isIdent at h
  rw [Bool.and_eq_true, List.all_eq_true] at h
  refine ⟨?_, fun c hc => ?_, hk⟩
  · cases s with
    | nil => simp at h
    | cons c s => simpa [e] using h.1
  · rw [← e]; exact h.2 c hc

theorem ident_goName {s : Str} (h : GoName s) : Ident (toUpper (noSpace s)) :=
  ident_of (goName_ident h) (toUpper_not_keyword _)

/-! ## Structs that can be written -/

theorem typeOk_of {s : Str} (h : s = b!"struct{}" ∨ ∃ y, Ident y ∧ s = b!"sq." ++ y) :
    TypeOk s (astType s) := by
  rcases h with rfl | ⟨y, hy, rfl⟩
  · exact .blank
  · have : astType (b!"sq." ++ y) = .sel b!"sq" y := by
      unfold astType
      rw [if_neg (by intro e; cases e)]
      rfl
    rw [this]
    exact .sel hy

theorem writable_ok {base : Str} {s : TableStruct} (h : Writable base s) (hb : base ≠ b!"struct{}") :
    StructOk s := by
  refine ⟨h.name, fun f hf => ?_⟩
  obtain ⟨g, gs, hs, hn, ht, hr⟩ := h.first
  have hw := h.fields f hf
  refine ⟨?_, ?_, typeOk_of hw.type, hw.tag, hw.ddl⟩
  · rw [hs] at hf
    rcases List.mem_cons.1 hf with rfl | hf
    · exact Or.inl hn
    · exact Or.inr (hr f hf)
  · intro hf0
    rw [hs] at hf
    rcases List.mem_cons.1 hf with rfl | hf
    · refine ⟨b!"sq", f.type.drop 3, ?_⟩
      unfold astType
      rw [if_neg (by rw [ht]; exact hb)]
    · have := (hr f hf).1
      rw [hf0] at this
      simp at this

/-- The text of the structs of tables, up to white space, is read as `throughText` says. -/
theorem tables_read {pkg : Str} (hp : Ident pkg) {ss : List TableStruct}
    (h : ∀ s ∈ ss, hasColumn s = true → Writable b!"sq.TableStruct" s) {text : Str}
    (ht : SameTokens text (header pkg ++ marshalTables ss)) :
    (file text).bind visitFile = throughText ss := by
  have hw : ∀ s ∈ ss.filter hasColumn, Writable b!"sq.TableStruct" s := fun s hs =>
    h s (List.mem_filter.1 hs).1 (List.mem_filter.1 hs).2
  have hok : ∀ s ∈ ss.filter hasColumn, StructOk s := fun s hs => writable_ok (hw s hs) (by decide)
  rw [file_read hp hok ht, Option.bind_some, visitFile_eq hok fun s hs => ?_]
  · rfl
  · obtain ⟨f, fs, h1, h2, h3, _⟩ := (hw s hs).first
    exact ⟨f, fs, h1, h2, h3⟩

/-! ## The run -/

/-- A run without an error that has something to write. -/
theorem writeText_ok {sys : RunSystem} (hsys : Trusted sys) {pkg filename text : Str} {old : Option Str}
    (htext : text ≠ []) (hfile : filename ≠ []) (hok : (writeText sys pkg filename text old).ok = true)
    (hp : Ident (packageName sys pkg filename)) :
    ∃ out, (writeText sys pkg filename text old).file = some out ∧
      SameTokens out (header (packageName sys pkg filename) ++ text) := by
  unfold writeText at hok ⊢
  rw [if_neg htext] at hok ⊢
  by_cases h1 : pkg = [] ∧ filename ≠ [] ∧ sys.mkdir = false
  · rw [if_pos h1] at hok; cases hok
  rw [if_neg h1] at hok ⊢
  cases hf : sys.format text with
  | none => rw [hf] at hok; cases hok
  | some out =>
    rw [hf] at hok
    simp only [if_pos hfile] at hok ⊢
    by_cases h2 : sys.openOk = true
    · rw [if_pos h2] at hok ⊢
      refine ⟨_, rfl, ?_⟩
      dsimp only at hok ⊢
      unfold writeBoth at hok ⊢
      dsimp only at hok ⊢
      by_cases h3 : (sys.write1 (header (packageName sys pkg filename))).2 = true
      · rw [if_pos h3] at hok ⊢
        dsimp only at hok ⊢
        rw [hsys.write1 _ h3, hsys.write2 _ hok]
        exact sameTokens_header hp (hsys.format _ _ hf)
      · rw [if_neg h3] at hok
        exact absurd hok h3
    · rw [if_neg h2] at hok; cases hok

end GoText

namespace Sqddl.Structs
open Go StructSpec ModifierSpec
open GoText (Ident)

/-! ## The structs of a database that fits -/

theorem fieldTypes_ok : ∀ ty ∈ fieldTypes, ty = b!"struct{}" ∨ ∃ y, Ident y ∧ ty = b!"sq." ++ y := by
  have h : ∀ ty ∈ fieldTypes, Ident (ty.drop 3) ∧ ty = b!"sq." ++ ty.drop 3 := by decide +kernel
  exact fun ty hm => Or.inr ⟨_, h ty hm⟩

section
variable {isFloat : Str → Bool} {d : Dialect} {cat : Catalog} {t : Table} (hf : TableFits isFloat d cat t)
  (href : ∀ k ∈ keysOf t, k.constraintType = FOREIGN_KEY → RefNames cat k)
include hf href

theorem structOf_writable : Writable b!"sq.TableStruct" (structOf d cat t) := by
  refine ⟨GoText.ident_goName hf.name, ⟨_, _, rfl, rfl, rfl, ?_⟩, ?_⟩
  · intro g hg
    rcases List.mem_append.1 hg with hg | hg
    rotate_left
    rcases List.mem_append.1 hg with hg | hg
    rotate_left 2
    · obtain ⟨c, hc, rfl⟩ := List.mem_map.1 hg
      exact GoText.ident_goName (hf.columns c hc).name
    all_goals
      obtain ⟨k, _, rfl⟩ := List.mem_map.1 hg
      exact (by decide : Ident b!"_")
  · intro f hm
    simp only [structOf, List.cons_append, List.mem_cons, List.mem_append] at hm
    rcases hm with rfl | hm | hm | hm
    · refine ⟨Or.inr ⟨b!"TableStruct", by decide, rfl⟩, tableTag_tick hf, ?_⟩
      refine (clean_roundtrip ?_).2
      rw [cleanAll_iff]
      intro m hm
      obtain ⟨k, hk, rfl⟩ := List.mem_map.1 hm
      exact clean_full hf href (List.mem_filter.1 hk).1
    · obtain ⟨c, hc, rfl⟩ := List.mem_map.1 hm
      have hn := (hf.columns c hc).name
      refine ⟨?_, ?_, (clean_roundtrip (clean_column hf href hc _)).2⟩
      · exact fieldTypes_ok _ (getFieldType_mem (getFieldType_some hf hc))
      · show '`' ∉ (if needsQuoting c.columnName then c.columnName else [])
        split
        · exact goName_not hn (by decide)
        · simp
    · obtain ⟨k, hk, rfl⟩ := List.mem_map.1 hm
      refine ⟨Or.inl rfl, List.not_mem_nil, (clean_roundtrip ?_).2⟩
      rw [cleanAll_iff]
      intro m hm
      simp only [blankField, List.mem_singleton] at hm
      subst hm
      exact clean_full hf href (List.mem_filter.1 hk).1
    · obtain ⟨x, hx, rfl⟩ := List.mem_map.1 hm
      refine ⟨Or.inl rfl, List.not_mem_nil, (clean_roundtrip ?_).2⟩
      rw [cleanAll_iff]
      intro m hm
      simp only [blankField, List.mem_singleton] at hm
      subst hm
      exact clean_indexOf hf (List.mem_filter.1 hx).1

end

/-! ## Schema-qualified structs -/

/-- The struct with another name and another tag of its first field. -/
def retag (name tag : Str) (s : TableStruct) : TableStruct :=
  match s.fields with
  | [] => s
  | f :: fs => { name := name, fields := { f with nameTag := tag } :: fs }

theorem tag_or_name {isFloat : Str → Bool} {d : Dialect} {cat : Catalog} {t : Table}
    (hf : TableFits isFloat d cat t) :
    (if tableTag cat.currentSchema t ≠ [] then tableTag cat.currentSchema t else
        toLower (toUpper (noSpace t.tableName))) =
      (if (t.tableSchema ≠ [] ∧ t.tableSchema ≠ cat.currentSchema) ∨
          (t.tableSchema ≠ [] ∧ needsQuoting t.tableName = true) then
        t.tableSchema ++ '.' :: t.tableName else t.tableName) := by
  by_cases hq : needsQuoting t.tableName = true
  · by_cases h0 : t.tableSchema = []
    · have ht : tableTag cat.currentSchema t = t.tableName := by
        unfold tableTag; rw [if_pos (Or.inr hq), if_neg (fun h => h h0)]
      have hc : ¬((t.tableSchema ≠ [] ∧ t.tableSchema ≠ cat.currentSchema) ∨
          (t.tableSchema ≠ [] ∧ needsQuoting t.tableName = true)) :=
        fun h => h.elim (fun h => h.1 h0) (fun h => h.1 h0)
      rw [ht, if_pos hf.name.1, if_neg hc]
    · have ht : tableTag cat.currentSchema t = t.tableSchema ++ '.' :: t.tableName := by
        unfold tableTag; rw [if_pos (Or.inr hq), if_pos h0]; simp
      have hc : (t.tableSchema ≠ [] ∧ t.tableSchema ≠ cat.currentSchema) ∨
          (t.tableSchema ≠ [] ∧ needsQuoting t.tableName = true) := Or.inr ⟨h0, hq⟩
      rw [ht, if_pos (by simp), if_pos hc]
  · by_cases h0 : t.tableSchema ≠ [] ∧ t.tableSchema ≠ cat.currentSchema
    · have ht : tableTag cat.currentSchema t = t.tableSchema ++ '.' :: t.tableName := by
        unfold tableTag; rw [if_pos (Or.inl h0), if_pos h0.1]; simp
      have hc : (t.tableSchema ≠ [] ∧ t.tableSchema ≠ cat.currentSchema) ∨
          (t.tableSchema ≠ [] ∧ needsQuoting t.tableName = true) := Or.inl h0
      rw [ht, if_pos (by simp), if_pos hc]
    · have ht : tableTag cat.currentSchema t = [] := by
        unfold tableTag; rw [if_neg (fun h => h.elim h0 hq)]
      have hc : ¬((t.tableSchema ≠ [] ∧ t.tableSchema ≠ cat.currentSchema) ∨
          (t.tableSchema ≠ [] ∧ needsQuoting t.tableName = true)) :=
        fun h => h.elim h0 (fun h => hq h.2)
      rw [ht, if_neg (fun h => h rfl), if_neg hc]
      exact toLower_toUpper hf.name (by simpa using hq)

theorem qualifyStruct_eq {isFloat : Str → Bool} {d d' : Dialect} {cat : Catalog} {t : Table}
    (hf : TableFits isFloat d cat t) :
    qualifyStruct cat.currentSchema (structOf d' cat t) =
      if t.tableSchema = [] then structOf d' cat t
      else retag (toUpper (noSpace (t.tableSchema ++ b!"_" ++ t.tableName)))
        (t.tableSchema ++ b!"." ++ t.tableName) (structOf d' cat t) := by
  have hdot : '.' ∉ t.tableName := goName_not hf.name (by decide)
  have hne : t.tableName ≠ [] := hf.name.1
  have hs := hf.schema
  have key : qualifyStruct cat.currentSchema (structOf d' cat t) =
      (let n := if tableTag cat.currentSchema t ≠ [] then tableTag cat.currentSchema t else
        toLower (toUpper (noSpace t.tableName))
      let p := (cutDot n).getD (n, [])
      let p := if p.2 = [] then (p.2, p.1) else p
      let schema := if p.1 = [] ∧ cat.currentSchema ≠ [] then cat.currentSchema else p.1
      if schema ≠ [] then
        retag (toUpper (noSpace (schema ++ b!"_" ++ p.2))) (schema ++ b!"." ++ p.2) (structOf d' cat t)
      else structOf d' cat t) := rfl
  rw [key, tag_or_name hf]
  by_cases h0 : t.tableSchema = []
  · rw [if_pos h0] at hs
    have hc : ¬((t.tableSchema ≠ [] ∧ t.tableSchema ≠ cat.currentSchema) ∨
          (t.tableSchema ≠ [] ∧ needsQuoting t.tableName = true)) :=
        fun h => h.elim (fun h => h.1 h0) (fun h => h.1 h0)
    simp only [if_neg hc, cutDot_none hdot, if_pos h0]
    rw [hs]
    simp
  · rw [if_neg h0] at hs
    have hsdot : '.' ∉ t.tableSchema := fun h => hs _ h (by simp)
    rw [if_neg h0]
    by_cases h1 : (t.tableSchema ≠ [] ∧ t.tableSchema ≠ cat.currentSchema) ∨
          (t.tableSchema ≠ [] ∧ needsQuoting t.tableName = true)
    · simp only [if_pos h1, cutDot_append hsdot]
      simp [hne, h0]
    · have hcur : t.tableSchema = cat.currentSchema :=
        Classical.not_not.1 fun h => h1 (Or.inl ⟨h0, h⟩)
      simp only [if_neg h1, cutDot_none hdot]
      rw [← hcur]
      simp [h0]

theorem goName_qualified {a b : Str} (ha : GoName a) (hb : GoName b) : GoName (a ++ b!"_" ++ b) := by
  obtain ⟨a1, _, _, a4, a5⟩ := ha
  obtain ⟨b1, _, _, _, b5⟩ := hb
  refine ⟨by simp, ?_, ?_, ?_, ?_⟩
  · intro e
    have := congrArg List.length e
    simp only [List.length_append, List.length_cons, List.length_nil] at this
    exact a1 (List.eq_nil_of_length_eq_zero (by omega))
  · intro e
    have := congrArg List.length e
    simp only [List.length_append, List.length_cons, List.length_nil] at this
    exact a1 (List.eq_nil_of_length_eq_zero (by omega))
  · intro c hc
    cases a with
    | nil => exact absurd rfl a1
    | cons x a => exact a4 c (by simpa using hc)
  · intro c hc
    rcases List.mem_append.1 hc with hc | hc
    · rcases List.mem_append.1 hc with hc | hc
      · exact a5 c hc
      · rw [List.mem_singleton] at hc; exact Or.inr (Or.inl hc)
    · exact b5 c hc

theorem retag_writable {base name tag : Str} {s : TableStruct} (h : Writable base s)
    (hn : Ident name) (ht : '`' ∉ tag) : Writable base (retag name tag s) := by
  obtain ⟨f, fs, h1, h2, h3, h4⟩ := h.first
  have e : retag name tag s = { name := name, fields := { f with nameTag := tag } :: fs } := by
    unfold retag; rw [h1]
  rw [e]
  refine ⟨hn, ⟨_, _, rfl, h2, h3, h4⟩, ?_⟩
  intro g hg
  rcases List.mem_cons.1 hg with rfl | hg
  · have := h.fields f (by rw [h1]; simp)
    exact ⟨this.type, ht, this.ddl⟩
  · exact h.fields g (by rw [h1]; simp [hg])

theorem retag_hasColumn {base name tag : Str} {s : TableStruct} (h : Writable base s) :
    hasColumn (retag name tag s) = hasColumn s := by
  obtain ⟨f, fs, h1, _⟩ := h.first
  unfold retag hasColumn
  rw [h1]
  rfl

theorem fieldThroughText_tag {f : StructField} {tag : Str} (h0 : f.name = []) (h1 : '`' ∉ f.nameTag)
    (h2 : '`' ∉ tag) :
    fieldThroughText { f with nameTag := tag } = (fieldThroughText f).map fun g => { g with nameTag := tag } := by
  unfold fieldThroughText
  dsimp only
  by_cases hd : '`' ∈ printModifiers f.modifiers
  · rw [if_pos (Or.inr (Or.inr hd)), if_pos (Or.inr (Or.inr hd))]; rfl
  · have n1 : ¬((f.name ≠ [] ∧ (!isIdent f.name) = true) ∨ '`' ∈ f.nameTag ∨ '`' ∈ printModifiers f.modifiers) :=
      fun h => h.elim (fun h => h.1 h0) (fun h => h.elim h1 hd)
    have n2 : ¬((f.name ≠ [] ∧ (!isIdent f.name) = true) ∨ '`' ∈ tag ∨ '`' ∈ printModifiers f.modifiers) :=
      fun h => h.elim (fun h => h.1 h0) (fun h => h.elim h2 hd)
    rw [if_neg n1, if_neg n2]
    cases (newModifiers (printModifiers f.modifiers)).2 <;> rfl

theorem writeStruct_cur {isFloat : Str → Bool} {dn : Str} {w w' : Writer} {s : TableStruct}
    (h : writeStruct isFloat dn w s = some w') : w'.cat.currentSchema = w.cat.currentSchema := by
  unfold writeStruct at h
  by_cases h0 : s.fields.isEmpty = true
  · rw [if_pos h0] at h; cases h; rfl
  · rw [if_neg h0] at h
    dsimp only at h
    rw [Option.bind_eq_some_iff] at h
    obtain ⟨g, hg, h⟩ := h
    rw [Option.bind_eq_some_iff] at h
    obtain ⟨sc, _, h⟩ := h
    rw [Option.bind_eq_some_iff] at h
    obtain ⟨tb, _, h⟩ := h
    rw [Option.bind_eq_some_iff] at h
    obtain ⟨tt, _, h⟩ := h
    rw [Option.map_eq_some_iff] at h
    obtain ⟨p, _, rfl⟩ := h
    show g.1.currentSchema = _
    unfold CatalogCache.getOrCreateSchema at hg
    rw [Option.map_eq_some_iff] at hg
    obtain ⟨r, _, rfl⟩ := hg
    rfl

theorem foldlM_cur {isFloat : Str → Bool} {dn cur : Str} {f : TableStruct → TableStruct} :
    ∀ (ss : List TableStruct) (w : Writer) (_ : w.cat.currentSchema = cur)
      (_ : ∀ s ∈ ss, ∀ w : Writer, w.cat.currentSchema = cur →
        writeStruct isFloat dn w (f s) = writeStruct isFloat dn w s),
      (ss.map f).foldlM (writeStruct isFloat dn) w = ss.foldlM (writeStruct isFloat dn) w
  | [], w, _, _ => rfl
  | s :: ss, w, hw, h => by
    rw [List.map_cons, List.foldlM_cons, List.foldlM_cons, h s (by simp) w hw]
    cases e : writeStruct isFloat dn w s with
    | none => rfl
    | some w' =>
      exact foldlM_cur ss w' ((writeStruct_cur e).trans hw) fun x hx => h x (by simp [hx])

theorem parseTable_tag {isFloat : Str → Bool} {dn tag : Str} {f : StructField} (h0 : f.name = [])
    (h1 : f.type = b!"sq.TableStruct") (fs : List StructField) (p : Parser) :
    parseTable isFloat dn ({ f with nameTag := tag } :: fs) p = parseTable isFloat dn (f :: fs) p := by
  have e : ∀ p, parseField isFloat dn p { f with nameTag := tag } = parseField isFloat dn p f := by
    intro p
    unfold parseField
    rw [if_pos (Or.inl ⟨h0, h1⟩), if_pos (Or.inl ⟨h0, h1⟩)]
  unfold parseTable
  rw [List.foldlM_cons, List.foldlM_cons, e]

end Sqddl.Structs

namespace Sqddl.Structs
open Go StructSpec ModifierSpec
open GoText (Ident)

theorem retag_flat (name tag : Str) (s : TableStruct) :
    retag name tag (flatStruct s) = flatStruct (retag name tag s) := by
  obtain ⟨n, fs⟩ := s
  cases fs <;> rfl

theorem retag_throughText {base name tag : Str} {s : TableStruct} (h : Writable base s) (ht : '`' ∉ tag)
    (hs : s.fields.mapM fieldThroughText = some (s.fields.map flatField)) :
    (retag name tag s).fields.mapM fieldThroughText = some ((retag name tag s).fields.map flatField) := by
  obtain ⟨f, fs, h1, h2, _⟩ := h.first
  have e : retag name tag s = { name := name, fields := { f with nameTag := tag } :: fs } := by
    unfold retag; rw [h1]
  have hf := (h.fields f (by rw [h1]; simp)).tag
  rw [h1, List.mapM_cons] at hs
  rw [e]
  show ({ f with nameTag := tag } :: fs).mapM fieldThroughText = _
  rw [List.mapM_cons, fieldThroughText_tag h2 hf ht]
  cases h3 : fieldThroughText f with
  | none => rw [h3] at hs; cases hs
  | some g =>
    cases h4 : fs.mapM fieldThroughText with
    | none => rw [h3, h4] at hs; cases hs
    | some gs =>
      rw [h3, h4] at hs
      have hs' : g :: gs = flatField f :: fs.map flatField := by simpa using hs
      obtain ⟨rfl, rfl⟩ := List.cons.inj hs'
      rfl

section
variable {isFloat : Str → Bool} {cat : Catalog}

/-- The same table is found by the qualified struct. -/
theorem writeStruct_retag {dn : Str} {t : Table} {d d' : Dialect} (hf : TableFits isFloat d cat t)
    (h0 : t.tableSchema ≠ []) (name : Str) {w : Writer} (hw : w.cat.currentSchema = cat.currentSchema) :
    writeStruct isFloat dn w (retag name (t.tableSchema ++ b!"." ++ t.tableName) (flatStruct (structOf d' cat t))) =
      writeStruct isFloat dn w (flatStruct (structOf d' cat t)) := by
  have hs := hf.schema
  rw [if_neg h0] at hs
  have hsdot : '.' ∉ t.tableSchema := fun h => hs _ h (by simp)
  have h1 : structTable w.cat.currentSchema (flatStruct (structOf d' cat t)) = (t.tableSchema, t.tableName) := by
    rw [hw]; exact structTable_eq hf
  have h2 : structTable w.cat.currentSchema
      (retag name (t.tableSchema ++ b!"." ++ t.tableName) (flatStruct (structOf d' cat t))) =
      (t.tableSchema, t.tableName) := by
    have htag : ∀ (f : StructField) (fs : List StructField), structTable w.cat.currentSchema
        { name := name, fields := { f with nameTag := t.tableSchema ++ '.' :: t.tableName } :: fs } =
        (t.tableSchema, t.tableName) := by
      intro f fs
      unfold structTable
      simp [cutDot_append hsdot, h0]
    rw [show t.tableSchema ++ b!"." ++ t.tableName = t.tableSchema ++ '.' :: t.tableName by simp]
    exact htag _ _
  have e : ∀ p, parseTable isFloat dn
      (retag name (t.tableSchema ++ b!"." ++ t.tableName) (flatStruct (structOf d' cat t))).fields p =
      parseTable isFloat dn (flatStruct (structOf d' cat t)).fields p :=
    fun p => parseTable_tag rfl rfl _ p
  unfold writeStruct
  rw [h1, h2, if_neg (by simp [retag, flatStruct, structOf]), if_neg (by simp [flatStruct, structOf])]
  simp only [e]

end

section
variable {isFloat : Str → Bool} {cat : Catalog} (hfit : Fits isFloat cat)
include hfit

theorem fits_table {t : Table} (ht : t ∈ tablesOf cat) :
    TableFits isFloat (dialectOf cat.dialect) cat t ∧ CatalogSpec.TableOk t := by
  obtain ⟨s, hs, hts⟩ := List.mem_flatMap.1 ht
  exact ⟨hfit.tables s hs t hts, (hfit.ok.ok s hs).ok t hts⟩

theorem tables_refs {t : Table} (ht : t ∈ tablesOf cat) :
    ∀ k ∈ keysOf t, k.constraintType = FOREIGN_KEY → RefNames cat k := fun k hk hfk =>
  have hf := (fits_table hfit ht).1
  refNames hfit ((hf.keys k hk).ref hfk) (hf.keys k hk).columns.1

theorem readCatalog_fits :
    readCatalog cat = some ((tablesOf cat).map (structOf (dialectOf cat.dialect) cat)) :=
  mapM_some fun _ ht => tableStruct_form (fits_table hfit ht).1 (fits_table hfit ht).2

/-- The struct that is written: with or without the schema in its name. -/
theorem qualified_eq {t : Table} (ht : t ∈ tablesOf cat) (q : Bool)
    (hq : q = true → t.tableSchema = [] ∨ GoName t.tableSchema) :
    ∃ s', s' = (if q then qualifyStruct cat.currentSchema (structOf (dialectOf cat.dialect) cat t)
        else structOf (dialectOf cat.dialect) cat t) ∧
      Writable b!"sq.TableStruct" s' ∧ hasColumn s' = true ∧
      s'.fields.mapM fieldThroughText = some (s'.fields.map flatField) ∧
      ∀ w : Writer, w.cat.currentSchema = cat.currentSchema →
        writeStruct isFloat cat.dialect w (flatStruct s') =
        writeStruct isFloat cat.dialect w (flatStruct (structOf (dialectOf cat.dialect) cat t)) := by
  have hf := (fits_table hfit ht).1
  have href := tables_refs hfit ht
  have hw := structOf_writable hf href
  have plain := struct_throughText hf href
  refine ⟨_, rfl, ?_⟩
  by_cases hqt : q = true
  · rw [if_pos hqt, qualifyStruct_eq hf]
    by_cases h0 : t.tableSchema = []
    · rw [if_pos h0]
      exact ⟨hw, struct_hasColumn hf, plain, fun w _ => rfl⟩
    · rw [if_neg h0]
      have hgn := (hq hqt).resolve_left h0
      have htag : '`' ∉ t.tableSchema ++ b!"." ++ t.tableName := by
        simp only [List.mem_append, not_or]
        exact ⟨⟨goName_not hgn (by decide), by decide⟩, goName_not hf.name (by decide)⟩
      refine ⟨retag_writable hw (GoText.ident_goName (goName_qualified hgn hf.name)) htag, ?_,
        retag_throughText hw htag plain, fun w hcur => ?_⟩
      · rw [retag_hasColumn hw]; exact struct_hasColumn hf
      · rw [← retag_flat]
        exact writeStruct_retag hf h0 _ hcur
  · rw [if_neg hqt]
    exact ⟨hw, struct_hasColumn hf, plain, fun w _ => rfl⟩

/-- The structs that are written, qualified or not, read into an empty catalog give what the structs of
the database give. -/
theorem qualified_roundTrip (q : Bool)
    (hq : q = true → ∀ t ∈ tablesOf cat, t.tableSchema = [] ∨ GoName t.tableSchema)
    {ss : List TableStruct}
    (hss : ss = qualify q cat.currentSchema ((tablesOf cat).map (structOf (dialectOf cat.dialect) cat))) :
    (∀ s ∈ ss, Writable b!"sq.TableStruct" s ∧ hasColumn s = true) ∧
    (throughText ss).bind (fun ss => writeCatalog isFloat ss (emptyLike cat)) = roundTrip isFloat cat := by
  have hform : ss = (tablesOf cat).map fun t =>
      (if q then qualifyStruct cat.currentSchema (structOf (dialectOf cat.dialect) cat t)
        else structOf (dialectOf cat.dialect) cat t) := by
    rw [hss]
    unfold qualify
    cases q
    · rfl
    · simp
  have hall : ∀ t ∈ tablesOf cat, _ := fun t ht => qualified_eq hfit ht q fun h => hq h t ht
  have hwrit : ∀ s ∈ ss, Writable b!"sq.TableStruct" s ∧ hasColumn s = true := by
    intro s hs
    rw [hform] at hs
    obtain ⟨t, ht, rfl⟩ := List.mem_map.1 hs
    obtain ⟨s', rfl, h1, h2, _⟩ := hall t ht
    exact ⟨h1, h2⟩
  refine ⟨hwrit, ?_⟩
  have hthr : throughText ss = some (ss.map flatStruct) := by
    unfold throughText
    rw [List.filter_eq_self.2 fun s hs => (hwrit s hs).2]
    refine mapM_some fun s hs => ?_
    rw [if_pos (GoText.isIdent_of (hwrit s hs).1.name)]
    rw [hform] at hs
    obtain ⟨t, ht, rfl⟩ := List.mem_map.1 hs
    obtain ⟨s', rfl, _, _, h3, _⟩ := hall t ht
    rw [h3]
    rfl
  unfold roundTrip
  rw [hthr, ← Option.bind_assoc, throughText_eq hfit, Option.bind_some, Option.bind_some]
  unfold writeCatalog
  have hfold : (ss.map flatStruct).foldlM (writeStruct isFloat cat.dialect)
        { cat := emptyLike cat, cache := newCatalogCache (emptyLike cat) } =
      ((tablesOf cat).map fun t => flatStruct (structOf (dialectOf cat.dialect) cat t)).foldlM
        (writeStruct isFloat cat.dialect)
        { cat := emptyLike cat, cache := newCatalogCache (emptyLike cat) } := by
    rw [hform, List.map_map]
    have key : ∀ (ts : List Table) (w : Writer), w.cat.currentSchema = cat.currentSchema →
        (∀ t ∈ ts, t ∈ tablesOf cat) →
        (ts.map (flatStruct ∘ fun t =>
          (if q then qualifyStruct cat.currentSchema (structOf (dialectOf cat.dialect) cat t)
            else structOf (dialectOf cat.dialect) cat t))).foldlM (writeStruct isFloat cat.dialect) w =
        (ts.map fun t => flatStruct (structOf (dialectOf cat.dialect) cat t)).foldlM
          (writeStruct isFloat cat.dialect) w := by
      intro ts
      induction ts with
      | nil => intro w _ _; rfl
      | cons t ts ih =>
        intro w hcur hts
        obtain ⟨s', hs', _, _, _, h5⟩ := hall t (hts t (by simp))
        rw [List.map_cons, List.map_cons, List.foldlM_cons, List.foldlM_cons]
        have h6 : writeStruct isFloat cat.dialect w (flatStruct s') = _ := h5 w hcur
        rw [Function.comp_apply, ← hs', h6]
        cases hwr : writeStruct isFloat cat.dialect w (flatStruct (structOf (dialectOf cat.dialect) cat t)) with
        | none => rfl
        | some w' =>
          exact ih w' ((writeStruct_cur hwr).trans hcur) fun x hx => hts x (by simp [hx])
    exact key _ _ rfl fun t ht => ht
  show (List.foldlM (writeStruct isFloat cat.dialect) _ _).bind _ =
    (List.foldlM (writeStruct isFloat cat.dialect) _ _).bind _
  rw [hfold]

end

end Sqddl.Structs
