import Verif.Spec.GoText
import Verif.Lemmas.StructText
import Verif.Lemmas.StructColumn

/-! Lemmas about the Go source of structs. -/

namespace GoText
open Go Sqddl
open Sqddl.Structs

/-! ## The lexer -/

theorem run_append {l l' : Lexer} {a : Str} (h : a.foldlM step l = some l') (b : Str) :
    (a ++ b).foldlM step l = b.foldlM step l' := by
  rw [List.foldlM_append, h]; rfl

theorem run_cons {l l' : Lexer} {c : Char} (h : step l c = some l') (b : Str) :
    (c :: b).foldlM step l = b.foldlM step l' := by
  rw [List.foldlM_cons, h]; rfl

theorem letter_not {c : Char} (h : (Letter c || isDigit c) = true) :
    c ≠ '`' ∧ c ≠ '"' ∧ c ≠ '\n' ∧ c ≠ ' ' ∧ c ≠ '.' ∧ c ≠ '{' := by
  refine ⟨?_, ?_, ?_, ?_, ?_, ?_⟩ <;> (rintro rfl; revert h; decide)

theorem run_more (ts : List Tok) : ∀ (b a : Str), (∀ c ∈ b, (Letter c || isDigit c) = true) →
    b.foldlM step ⟨ts, .word a⟩ = some ⟨ts, .word (a ++ b)⟩
  | [], a, _ => by simp
  | c :: b, a, h => by
    have hc : step ⟨ts, .word a⟩ c = some ⟨ts, .word (a ++ [c])⟩ := by
      unfold step; dsimp only; rw [if_pos (h c (by simp))]
    rw [run_cons hc, run_more ts b _ fun x hx => h x (by simp [hx])]
    simp

/-- A word. -/
theorem run_ident (ts : List Tok) {w : Str} (h : Ident w) :
    w.foldlM step ⟨ts, .idle⟩ = some ⟨ts, .word w⟩ := by
  obtain ⟨h1, h2, _⟩ := h
  cases w with
  | nil => simp at h1
  | cons c w =>
    have hc : step ⟨ts, .idle⟩ c = some ⟨ts, .word [c]⟩ := by
      have hl : Letter c = true := by simpa using h1
      unfold step between; dsimp only; rw [if_pos hl]
    rw [run_cons hc, run_more ts w [c] fun x hx => h2 x (by simp [hx])]
    rfl

theorem wordTok_ident {w : Str} (h : Ident w) : wordTok w = .word w := by
  have hk := h.2.2
  unfold wordTok
  rw [if_neg, if_neg, if_neg, if_neg, if_neg hk]
  all_goals (rintro rfl; exact hk (by decide))

/-- A word and the character after it. -/
theorem run_word_then (ts : List Tok) {w : Str} (h : Ident w) {c : Char} {l : Lexer}
    (hc : (Letter c || isDigit c) = false) (hb : between (.word w :: ts) c = some l) (rest : Str) :
    (w ++ c :: rest).foldlM step ⟨ts, .idle⟩ = rest.foldlM step l := by
  rw [run_append (run_ident ts h)]
  refine run_cons ?_ rest
  unfold step
  dsimp only
  rw [if_neg (by rw [hc]; decide), wordTok_ident h, hb]

theorem run_rawChars (ts : List Tok) : ∀ (b a : Str), '`' ∉ b → '\r' ∉ b →
    b.foldlM step ⟨ts, .raw a⟩ = some ⟨ts, .raw (a ++ b)⟩
  | [], a, _, _ => by simp
  | c :: b, a, h1, h2 => by
    have hc : step ⟨ts, .raw a⟩ c = some ⟨ts, .raw (a ++ [c])⟩ := by
      unfold step; dsimp only
      rw [if_neg (by rintro rfl; simp at h1), if_neg (by rintro rfl; simp at h2)]
    rw [run_cons hc, run_rawChars ts b _ (fun h => h1 (by simp [h])) fun h => h2 (by simp [h])]
    simp

/-- A string in backquotes. -/
theorem run_raw (ts : List Tok) {s : Str} (h1 : '`' ∉ s) (h2 : '\r' ∉ s) (rest : Str) :
    ('`' :: s ++ '`' :: rest).foldlM step ⟨ts, .idle⟩ = rest.foldlM step ⟨.raw s :: ts, .idle⟩ := by
  have hc : step ⟨ts, .idle⟩ '`' = some ⟨ts, .raw []⟩ := rfl
  rw [List.cons_append, run_cons hc, run_append (run_rawChars ts s [] h1 h2)]
  exact run_cons rfl rest

/-! ## The type of a field -/

/-- The types that are written: `sq.` and a name, or `struct{}`. -/
inductive TypeOk : Str → AstType → Prop where
  | sel {y : Str} (h : Ident y) : TypeOk (b!"sq." ++ y) (.sel b!"sq" y)
  | blank : TypeOk b!"struct{}" .emptyStruct

/-- The tokens of a type. -/
def typeToks : AstType → List Tok
  | .sel x y => [.word x, .dot, .word y]
  | .ident x => [.word x]
  | .emptyStruct => [.kwStruct, .lbrace, .rbrace]
  | .other => []

theorem TypeOk.text {s : Str} {a : AstType} (h : TypeOk s a) : typeText a = s := by
  cases h <;> rfl

theorem ident_sq : Ident b!"sq" := by decide

theorem run_sq (ts : List Tok) (rest : Str) :
    (b!"sq." ++ rest).foldlM step ⟨ts, .idle⟩ = rest.foldlM step ⟨.dot :: .word b!"sq" :: ts, .idle⟩ :=
  run_word_then ts ident_sq (c := '.') (by decide) rfl rest

/-- A type and the space or the line break after it. -/
theorem run_type (ts : List Tok) {s : Str} {a : AstType} (h : TypeOk s a) {c : Char}
    (hc : c = ' ' ∨ c = '\n') (rest : Str) :
    (s ++ c :: rest).foldlM step ⟨ts, .idle⟩ =
      rest.foldlM step ⟨if c = ' ' then (typeToks a).reverse ++ ts else
        .semi :: ((typeToks a).reverse ++ ts), .idle⟩ := by
  cases h with
  | sel h =>
    rename_i y
    rw [List.append_assoc, run_sq]
    rcases hc with rfl | rfl
    · exact run_word_then _ h (by decide) rfl rest
    · exact run_word_then _ h (by decide) rfl rest
  | blank =>
    rcases hc with rfl | rfl <;> rfl

/-! ## Quoted text -/

theorem quoteChar_plain {c : Char} (h : c ∉ quoteChar c) : quoteChar c ≠ [c] := by
  intro e; rw [e] at h; simp at h

theorem hex_digit : ∀ n, n < 16 → hexValue (hexDigit n) = some n := by
  decide

theorem char_ofNat_toNat (c : Char) : Char.ofNat c.toNat = c := by
  exact Char.ofNat_toNat c

theorem unquote_char (c : Char) (rest : Str) :
    unquoteRest (quoteChar c ++ rest) = (unquoteRest rest).map (c :: ·) := by
  unfold quoteChar
  by_cases h1 : c = '"'
  · subst h1; rfl
  rw [if_neg h1]
  by_cases h2 : c = '\\'
  · subst h2; rfl
  rw [if_neg h2]
  have key : ∀ (n : Nat), c.toNat = n → c = Char.ofNat n := fun n h => by rw [← h, char_ofNat_toNat]
  by_cases h3 : c.toNat = 7
  · rw [if_pos h3, key 7 h3]; rfl
  rw [if_neg h3]
  by_cases h4 : c.toNat = 8
  · rw [if_pos h4, key 8 h4]; rfl
  rw [if_neg h4]
  by_cases h5 : c.toNat = 12
  · rw [if_pos h5, key 12 h5]; rfl
  rw [if_neg h5]
  by_cases h6 : c = '\n'
  · subst h6; rfl
  rw [if_neg h6]
  by_cases h7 : c = '\r'
  · subst h7; rfl
  rw [if_neg h7]
  by_cases h8 : c = '\t'
  · subst h8; rfl
  rw [if_neg h8]
  by_cases h9 : c.toNat = 11
  · rw [if_pos h9, key 11 h9]; rfl
  rw [if_neg h9]
  by_cases h10 : c.toNat < 32 ∨ c.toNat = 127
  · rw [if_pos h10]
    show unquoteRest ('\\' :: 'x' :: hexDigit (c.toNat / 16) :: hexDigit (c.toNat % 16) :: rest) = _
    rw [unquoteRest, hex_digit _ (by omega), hex_digit _ (by omega)]
    simp only [Option.bind_some]
    rw [show 16 * (c.toNat / 16) + c.toNat % 16 = c.toNat by omega, char_ofNat_toNat]
  · rw [if_neg h10]
    show unquoteRest (c :: rest) = _
    rw [unquoteRest.eq_def]
    split
    · cases ‹c :: rest = []›
    · rename_i h; exact absurd (List.cons.inj h).1 h1
    · rename_i h; exact absurd (List.cons.inj h).1 h2
    · rename_i h; exact absurd (List.cons.inj h).1 h2
    · rename_i h
      obtain ⟨rfl, rfl⟩ := List.cons.inj h
      rw [if_neg (fun h => h.elim h6 h2)]

theorem unquote_quoted (s : Str) : unquoteRest (s.flatMap quoteChar ++ b!"\"") = some s := by
  induction s with
  | nil => rfl
  | cons c s ih =>
    rw [List.flatMap_cons, List.append_assoc, unquote_char, ih]; rfl

theorem goUnquote_goQuote (s : Str) : goUnquote (goQuote s) = some s := unquote_quoted s

theorem cut_char (c : Char) (rest : Str) :
    cutQuoted (quoteChar c ++ rest) = (cutQuoted rest).map fun r => (quoteChar c ++ r.1, r.2) := by
  by_cases h1 : c = '"'
  · subst h1; rfl
  by_cases h2 : c = '\\'
  · subst h2; rfl
  have esc : ∀ x : Char, cutQuoted (['\\', x] ++ rest) =
      (cutQuoted rest).map fun r => (['\\', x] ++ r.1, r.2) := by
    intro x; rfl
  have plain : ∀ (a : Char) (l : Str), a ≠ '"' → a ≠ '\\' →
      cutQuoted (a :: l) = (cutQuoted l).map fun r => (a :: r.1, r.2) := by
    intro a l ha hb
    rw [cutQuoted.eq_def]
    split
    · cases ‹a :: l = []›
    · rename_i h; exact absurd (List.cons.inj h).1 ha
    · rename_i h; exact absurd (List.cons.inj h).1 hb
    · rename_i h; obtain ⟨rfl, rfl⟩ := List.cons.inj h; rfl
  have hexNot : ∀ n, n < 16 → hexDigit n ≠ '"' ∧ hexDigit n ≠ '\\' := by decide
  unfold quoteChar
  rw [if_neg h1, if_neg h2]
  repeat' split
  all_goals first | exact esc _ | skip
  · show cutQuoted ('\\' :: 'x' :: hexDigit (c.toNat / 16) :: hexDigit (c.toNat % 16) :: rest) = _
    have ha := hexNot (c.toNat / 16) (by omega)
    have hb := hexNot (c.toNat % 16) (by omega)
    rw [cutQuoted, plain _ _ ha.1 ha.2, plain _ _ hb.1 hb.2]
    cases cutQuoted rest <;> rfl
  · exact plain c rest h1 h2

theorem cut_quoted (s rest : Str) :
    cutQuoted (s.flatMap quoteChar ++ '"' :: rest) = some (s.flatMap quoteChar ++ b!"\"", rest) := by
  induction s with
  | nil => rfl
  | cons c s ih =>
    rw [List.flatMap_cons, List.append_assoc, cut_char, ih]
    simp

theorem quoteChar_not {c x : Char} (hx : x = '`' ∨ x = '\r' ∨ x = '\n') (h : x = '`' → c ≠ '`') : x ∉ quoteChar c := by
  have hexNot : ∀ n, n < 16 → hexDigit n ≠ '`' ∧ hexDigit n ≠ '\r' ∧ hexDigit n ≠ '\n' := by decide
  unfold quoteChar
  by_cases h1 : c = '"'
  · rw [if_pos h1]; rcases hx with rfl | rfl | rfl <;> decide
  rw [if_neg h1]
  by_cases h2 : c = '\\'
  · rw [if_pos h2]; rcases hx with rfl | rfl | rfl <;> decide
  rw [if_neg h2]
  repeat' split
  all_goals first
    | (rcases hx with rfl | rfl | rfl <;> decide)
    | skip
  · rename_i hc
    have ha := hexNot (c.toNat / 16) (by omega)
    have hb := hexNot (c.toNat % 16) (by omega)
    generalize hexDigit (c.toNat / 16) = a at ha
    generalize hexDigit (c.toNat % 16) = b at hb
    rcases hx with rfl | rfl | rfl <;>
      (simp only [List.mem_append, List.mem_cons, List.not_mem_nil, or_false, not_or]
       grind)
  · rw [List.mem_singleton]
    rintro rfl
    rcases hx with rfl | rfl | rfl
    · exact h rfl rfl
    · rename_i h8 _ _ _; exact h8 rfl
    · rename_i h8 _ _ _ _; exact h8 rfl

theorem goQuote_not {s : Str} {x : Char} (hx : x = '`' ∨ x = '\r' ∨ x = '\n') (h : x = '`' → '`' ∉ s) :
    x ∉ goQuote s := by
  unfold goQuote
  simp only [List.mem_append, List.mem_flatMap, not_or]
  refine ⟨⟨by rcases hx with rfl | rfl | rfl <;> decide, ?_⟩, by rcases hx with rfl | rfl | rfl <;> decide⟩
  rintro ⟨c, hc, hxc⟩
  refine quoteChar_not hx (fun e => ?_) hxc
  rintro rfl
  exact h e hc

/-! ## The tag -/

theorem tagText_not {f : StructField} {x : Char} (hx : x = '`' ∨ x = '\r')
    (h1 : '`' ∉ f.nameTag) (h2 : '`' ∉ printModifiers f.modifiers) : x ∉ tagText f := by
  have hx' : x = '`' ∨ x = '\r' ∨ x = '\n' := by rcases hx with rfl | rfl <;> simp
  unfold tagText
  have ha := goQuote_not (s := f.nameTag) hx' fun _ => h1
  have hb := goQuote_not (s := printModifiers f.modifiers) hx' fun _ => h2
  have hs : x ∉ (b!"sq:" : Str) ∧ x ∉ (b!"ddl:" : Str) ∧ x ∉ (b!" " : Str) := by
    rcases hx with rfl | rfl <;> decide
  dsimp only
  simp only [List.mem_append, not_or]
  refine ⟨⟨?_, ?_⟩, ?_⟩ <;> split <;> simp_all

/-- One round of the search: a key with its value. -/
theorem tagGetLoop_step (key name value rest : Str) (n : Nat) (hname : name ≠ [])
    (hk : ∀ c ∈ name, keyChar c = true) :
    tagGetLoop key (n + 1) (name ++ ':' :: goQuote value ++ rest) =
      if key = name then value else tagGetLoop key n rest := by
  have hdrop : (name ++ ':' :: goQuote value ++ rest).dropWhile (· == ' ') =
      name ++ ':' :: goQuote value ++ rest := by
    cases name with
    | nil => exact absurd rfl hname
    | cons c l =>
      have hc := hk c (by simp)
      have : (c == ' ') = false := by
        rw [beq_eq_false_iff_ne]; rintro rfl; revert hc; decide
      simp [List.dropWhile_cons, this]
  have htake : (name ++ ':' :: goQuote value ++ rest).takeWhile keyChar = name := by
    rw [List.append_assoc, List.takeWhile_append_of_pos hk]
    simp [List.takeWhile_cons, show keyChar ':' = false from rfl]
  have hrest : (name ++ ':' :: goQuote value ++ rest).dropWhile keyChar =
      ':' :: '"' :: (value.flatMap quoteChar ++ '"' :: rest) := by
    rw [List.append_assoc, List.dropWhile_append_of_pos hk]
    simp [List.dropWhile_cons, show keyChar ':' = false from rfl, goQuote]
  rw [tagGetLoop]
  rw [hdrop, htake, hrest, if_neg hname]
  simp only [cut_quoted]
  split
  · have : goUnquote ('"' :: (value.flatMap quoteChar ++ b!"\"")) = some value := unquote_quoted value
    rw [this]; rfl
  · rfl

theorem tagGetLoop_space (key tag : Str) (n : Nat) :
    tagGetLoop key n (' ' :: tag) = tagGetLoop key n tag := by
  cases n with
  | zero => rfl
  | succ n => rw [tagGetLoop, tagGetLoop]; rfl

theorem tagGetLoop_nil (key : Str) (n : Nat) : tagGetLoop key n [] = [] := by
  cases n with
  | zero => rfl
  | succ n => rfl

/-- The last key with its value. -/
theorem tagGetLoop_last (key name value : Str) (n : Nat) (hname : name ≠ [])
    (hk : ∀ c ∈ name, keyChar c = true) :
    tagGetLoop key (n + 1) (name ++ ':' :: goQuote value) = if key = name then value else [] := by
  have h := tagGetLoop_step key name value [] n hname hk
  rw [List.append_nil, tagGetLoop_nil] at h
  exact h

/-- What the tag says about a key: the modifiers. -/
theorem tagGet_both (key : Str) (f : StructField) (hkey : key = b!"sq" ∨ key = b!"ddl") :
    tagGet key (tagText f) = if key = b!"sq" then f.nameTag else printModifiers f.modifiers := by
  unfold tagGet tagText
  dsimp only
  generalize printModifiers f.modifiers = d
  by_cases h1 : f.nameTag = []
  · rw [if_neg (fun h => h h1), if_neg (fun h => h.1 h1), List.nil_append, List.nil_append, h1]
    by_cases h2 : d = []
    · rw [if_neg (fun h => h h2), h2, tagGetLoop_nil, ite_self]
    · rw [if_pos h2]
      refine (tagGetLoop_last key b!"ddl" d _ (by decide) (by decide)).trans ?_
      rcases hkey with rfl | rfl <;> rfl
  · rw [if_pos h1]
    by_cases h2 : d = []
    · rw [if_neg (fun h => h.2 h2), if_neg (fun h => h h2), List.append_nil, List.append_nil, h2]
      exact tagGetLoop_last key b!"sq" f.nameTag _ (by decide) (by decide)
    · rw [if_pos ⟨h1, h2⟩, if_pos h2, List.append_assoc (b!"sq:" ++ goQuote f.nameTag)]
      refine (tagGetLoop_step key b!"sq" f.nameTag (b!" " ++ (b!"ddl:" ++ goQuote d)) _
        (by decide) (by decide)).trans ?_
      rcases hkey with rfl | rfl
      · rfl
      · rw [if_neg (by decide), if_neg (by decide)]
        show tagGetLoop _ _ (' ' :: _) = _
        rw [tagGetLoop_space]
        obtain ⟨n, hn⟩ : ∃ n, (b!"sq:" ++ goQuote f.nameTag ++ (b!" " ++ (b!"ddl:" ++ goQuote d))).length = n + 1 :=
          ⟨_, (Nat.succ_pred_eq_of_pos (by simp)).symm⟩
        rw [hn]
        exact tagGetLoop_last b!"ddl" b!"ddl" d n (by decide) (by decide)

theorem tagGet_sq {f : StructField} : tagGet b!"sq" (tagText f) = f.nameTag :=
  tagGet_both _ f (Or.inl rfl)

theorem tagGet_ddl {f : StructField} : tagGet b!"ddl" (tagText f) = printModifiers f.modifiers :=
  tagGet_both _ f (Or.inr rfl)

/-! ## A field -/

/-- A field that can be written: its name (unless it is embedded) is an identifier, its type is one of
those that are written, and there is no backquote in the tag. -/
structure FieldOk (f : StructField) (a : AstType) : Prop where
  name : f.name = [] ∨ Ident f.name
  embedded : f.name = [] → ∃ x y, a = .sel x y
  type : TypeOk f.type a
  tag : '`' ∉ f.nameTag
  ddl : '`' ∉ printModifiers f.modifiers

/-- The field as the parser gives it. -/
def astField (f : StructField) (a : AstType) : AstField :=
  { name := f.name, type := a, tag := if tagText f = [] then none else some (tagText f) }

/-- The tokens of a field. -/
def fieldToks (f : AstField) : List Tok :=
  (if f.name = [] then [] else [.word f.name]) ++ typeToks f.type ++
  (match f.tag with
    | none => []
    | some t => [.raw t]) ++ [.semi]

/-- The line of a field without the line break before it and with the one after it. -/
def fieldLine (f : StructField) : Str := (fieldText f).tail ++ b!"\n"

theorem fieldText_eq (f : StructField) : fieldText f = '\n' :: (fieldText f).tail := by
  unfold fieldText
  split <;> rfl

theorem run_fieldLine (ts : List Tok) {f : StructField} {a : AstType} (h : FieldOk f a) (rest : Str) :
    (fieldLine f ++ rest).foldlM step ⟨ts, .idle⟩ =
      rest.foldlM step ⟨(fieldToks (astField f a)).reverse ++ ts, .idle⟩ := by
  have hbody : ∀ ts' : List Tok,
      (f.type ++ ((if tagText f = [] then [] else b!" `" ++ tagText f ++ b!"`") ++ (b!"\n" ++ rest))).foldlM
        step ⟨ts', .idle⟩ =
      rest.foldlM step ⟨.semi :: ((match (astField f a).tag with
        | none => []
        | some t => [Tok.raw t]) ++ ((typeToks a).reverse ++ ts')), .idle⟩ := by
    intro ts'
    unfold astField
    by_cases ht : tagText f = []
    · simp only [ht, if_true]
      exact run_type ts' h.type (c := '\n') (Or.inr rfl) rest
    · simp only [if_neg ht]
      have e : f.type ++ (b!" `" ++ tagText f ++ b!"`" ++ (b!"\n" ++ rest)) =
          f.type ++ ' ' :: ('`' :: tagText f ++ '`' :: ('\n' :: rest)) := by simp
      rw [e, run_type ts' h.type (Or.inl rfl), if_pos rfl,
        run_raw _ (tagText_not (Or.inl rfl) h.tag h.ddl) (tagText_not (Or.inr rfl) h.tag h.ddl)]
      exact run_cons rfl rest
  have htab : ∀ s : Str, ('\t' :: s).foldlM step ⟨ts, .idle⟩ = s.foldlM step ⟨ts, .idle⟩ :=
    fun s => run_cons rfl s
  by_cases hn : f.name = []
  · have e : fieldLine f ++ rest = '\t' ::
        (f.type ++ ((if tagText f = [] then [] else b!" `" ++ tagText f ++ b!"`") ++ (b!"\n" ++ rest))) := by
      unfold fieldLine fieldText
      rw [if_neg (fun h => h hn)]
      simp
    rw [e, htab, hbody]
    simp only [fieldToks, astField, hn, if_true, List.nil_append, List.reverse_append]
    cases (if tagText f = [] then none else some (tagText f)) <;> simp
  · have hi := h.name.resolve_left hn
    have e : fieldLine f ++ rest = '\t' :: (f.name ++ ' ' ::
        (f.type ++ ((if tagText f = [] then [] else b!" `" ++ tagText f ++ b!"`") ++ (b!"\n" ++ rest)))) := by
      unfold fieldLine fieldText
      rw [if_pos hn]
      simp
    rw [e, htab, run_word_then ts hi (c := ' ') (by decide) rfl, hbody]
    simp only [fieldToks, astField, List.reverse_append]
    cases (if tagText f = [] then none else some (tagText f)) <;> simp [hn]

/-- The tokens of a field are read as the field. -/
theorem fields_cons {f : StructField} {a : AstType} (h : FieldOk f a) (ts : List Tok) :
    fields (fieldToks (astField f a) ++ ts) =
      (fields ts).map fun r => (astField f a :: r.1, r.2) := by
  have hty := h.type
  have hemb := h.embedded
  generalize ha : astField f a = g
  have hg : g.type = a := by rw [← ha]; rfl
  have hgn : g.name = f.name := by rw [← ha]; rfl
  rw [← hgn] at hemb
  clear ha hgn h
  generalize f.type = ty at hty
  obtain ⟨gn, gt, gtag⟩ := g
  simp only at hg hemb
  subst hg
  unfold fieldToks
  cases hty with
  | sel hy =>
    by_cases hn : gn = []
    · subst hn; cases gtag <;> simp [typeToks, fields]
    · cases gtag <;> simp [typeToks, fields, hn]
  | blank =>
    by_cases hn : gn = []
    · obtain ⟨x, y, e⟩ := hemb hn; cases e
    · cases gtag <;> simp [typeToks, fields, hn]

/-! ## Structs -/

/-- The type of a field as the parser gives it. -/
def astType (s : Str) : AstType := if s = b!"struct{}" then .emptyStruct else .sel b!"sq" (s.drop 3)

/-- A struct that can be written. -/
structure StructOk (s : TableStruct) : Prop where
  name : Ident s.name
  fields : ∀ f ∈ s.fields, FieldOk f (astType f.type)

/-- The struct as the parser gives it. -/
def astStruct (s : TableStruct) : AstStruct :=
  ⟨s.name, s.fields.map fun f => astField f (astType f.type)⟩

/-- The tokens of a struct. -/
def structToks (s : AstStruct) : List Tok :=
  [.kwType, .word s.name, .kwStruct, .lbrace] ++ s.fields.flatMap fieldToks ++ [.rbrace, .semi]

theorem fields_text : ∀ fs : List StructField,
    fs.flatMap fieldText ++ b!"\n}\n" = b!"\n" ++ (fs.flatMap fieldLine ++ b!"}\n")
  | [] => rfl
  | f :: fs => by
    rw [List.flatMap_cons, List.append_assoc, fields_text fs, List.flatMap_cons, fieldText_eq]
    simp [fieldLine]

theorem run_fieldLines : ∀ (fs : List StructField) (ts : List Tok)
    (_ : ∀ f ∈ fs, FieldOk f (astType f.type)) (rest : Str),
    (fs.flatMap fieldLine ++ rest).foldlM step ⟨ts, .idle⟩ =
      rest.foldlM step
        ⟨((fs.map fun f => astField f (astType f.type)).flatMap fieldToks).reverse ++ ts, .idle⟩
  | [], ts, _, rest => rfl
  | f :: fs, ts, h, rest => by
    rw [List.flatMap_cons, List.append_assoc, run_fieldLine ts (h f (by simp)),
      run_fieldLines fs _ (fun g hg => h g (by simp [hg]))]
    simp

theorem run_structText (ts : List Tok) {s : TableStruct} (h : StructOk s) (rest : Str) :
    (structText s ++ rest).foldlM step ⟨ts, .idle⟩ =
      rest.foldlM step ⟨(structToks (astStruct s)).reverse ++ ts, .idle⟩ := by
  have e : structText s ++ rest = b!"type " ++ (s.name ++ ' ' :: (b!"struct {\n" ++
      (s.fields.flatMap fieldLine ++ (b!"}\n" ++ rest)))) := by
    unfold structText
    rw [List.append_assoc _ _ b!"\n}\n", fields_text]
    simp
  have h1 : (b!"type ").foldlM step ⟨ts, .idle⟩ = some ⟨.kwType :: ts, .idle⟩ := rfl
  have h2 : ∀ ts', (b!"struct {\n").foldlM step ⟨ts', .idle⟩ = some ⟨.lbrace :: .kwStruct :: ts', .idle⟩ :=
    fun _ => rfl
  have h3 : ∀ ts', (b!"}\n").foldlM step ⟨ts', .idle⟩ = some ⟨.semi :: .rbrace :: ts', .idle⟩ :=
    fun _ => rfl
  rw [e, run_append h1, run_word_then _ h.name (c := ' ') (by decide) rfl, run_append (h2 _),
    run_fieldLines _ _ h.fields, run_append (h3 _)]
  simp [structToks, astStruct]

theorem run_more_structs : ∀ (ss : List TableStruct) (ts : List Tok) (_ : ∀ s ∈ ss, StructOk s),
    (ss.flatMap fun s => b!"\n" ++ structText s).foldlM step ⟨.semi :: ts, .idle⟩ =
      some ⟨((ss.map astStruct).flatMap structToks).reverse ++ .semi :: ts, .idle⟩
  | [], ts, _ => rfl
  | s :: ss, ts, h => by
    have h1 : (b!"\n").foldlM step ⟨.semi :: ts, .idle⟩ = some ⟨.semi :: ts, .idle⟩ := rfl
    rw [List.flatMap_cons, List.append_assoc, run_append h1, run_structText _ (h s (by simp))]
    have e : (structToks (astStruct s)).reverse ++ Tok.semi :: ts =
        .semi :: (.rbrace :: (((astStruct s).fields.flatMap fieldToks).reverse ++
          [.lbrace, .kwStruct, .word s.name, .kwType]) ++ .semi :: ts) := by
      simp [structToks, astStruct]
    rw [e, run_more_structs ss _ fun x hx => h x (by simp [hx]), ← e]
    simp

/-- The tokens of the first lines. -/
def headToks (pkg : Str) : List Tok :=
  [.kwPackage, .word pkg, .semi, .kwImport, .str b!"github.com/bokwoon95/sq", .semi]

/-- The tokens of a file of structs. -/
theorem lex_file {pkg : Str} (hp : Ident pkg) {ss : List TableStruct} (h : ∀ s ∈ ss, StructOk s) :
    lex (header pkg ++ structsText ss) = some (headToks pkg ++ (ss.map astStruct).flatMap structToks) := by
  unfold lex
  have e : header pkg ++ structsText ss = b!"package " ++ (pkg ++ '\n' ::
      (b!"\nimport \"github.com/bokwoon95/sq\"\n\n" ++ structsText ss)) := by
    simp [header]
  have h1 : (b!"package ").foldlM step {} = some ⟨[.kwPackage], .idle⟩ := rfl
  have h2 : ∀ ts, (b!"\nimport \"github.com/bokwoon95/sq\"\n\n").foldlM step ⟨.semi :: ts, .idle⟩ =
      some ⟨.semi :: .str b!"github.com/bokwoon95/sq" :: .kwImport :: .semi :: ts, .idle⟩ :=
    fun _ => rfl
  rw [e, run_append h1, run_word_then _ hp (c := '\n') (by decide) rfl]
  show Option.bind (List.foldlM step ⟨.semi :: _, .idle⟩ _) finish = _
  rw [run_append (h2 _)]
  cases ss with
  | nil => rfl
  | cons s ss =>
    rw [structsText, run_structText _ (h s (by simp))]
    have e : ∀ ts, (structToks (astStruct s)).reverse ++ ts =
        .semi :: (.rbrace :: (((astStruct s).fields.flatMap fieldToks).reverse ++
          [.lbrace, .kwStruct, .word s.name, .kwType]) ++ ts) := by
      simp [structToks, astStruct]
    rw [e, run_more_structs ss _ fun x hx => h x (by simp [hx]), ← e, Option.bind_some]
    have hend : ∀ ts : List Tok, endsLine (((ss.map astStruct).flatMap structToks).reverse ++
        ((structToks (astStruct s)).reverse ++ ts)) = false := by
      intro ts
      rw [← List.append_assoc, ← List.reverse_append, ← List.flatMap_cons, ← List.map_cons]
      have : s :: ss = (s :: ss).dropLast ++ [(s :: ss).getLast (by simp)] :=
        (List.dropLast_concat_getLast _).symm
      rw [this]
      simp [structToks, endsLine]
    simp only [finish, newline, hend]
    simp [headToks]

theorem fields_read : ∀ (fs : List StructField) (_ : ∀ f ∈ fs, FieldOk f (astType f.type)) (ts : List Tok),
    fields ((fs.map fun f => astField f (astType f.type)).flatMap fieldToks ++ .rbrace :: ts) =
      some (fs.map fun f => astField f (astType f.type), ts)
  | [], _, ts => by rw [List.map_nil, List.flatMap_nil, List.nil_append, fields]
  | f :: fs, h, ts => by
    rw [List.map_cons, List.flatMap_cons, List.append_assoc, fields_cons (h f (by simp)),
      fields_read fs fun g hg => h g (by simp [hg])]
    rfl

theorem decls_read : ∀ (ss : List TableStruct) (n : Nat) (_ : ss.length ≤ n) (_ : ∀ s ∈ ss, StructOk s),
    decls n ((ss.map astStruct).flatMap structToks) = some (ss.map astStruct)
  | [], n, _, _ => by rw [List.map_nil, List.flatMap_nil, decls]
  | s :: ss, 0, hn, _ => absurd hn (by simp)
  | s :: ss, n + 1, hn, h => by
    have e : ((s :: ss).map astStruct).flatMap structToks =
        .kwType :: .word s.name :: .kwStruct :: .lbrace ::
          ((s.fields.map fun f => astField f (astType f.type)).flatMap fieldToks ++
            .rbrace :: .semi :: (ss.map astStruct).flatMap structToks) := by
      simp [structToks, astStruct]
    rw [e, decls, fields_read _ (h s (by simp)).fields, Option.bind_some]
    dsimp only
    rw [decls_read ss n (by simpa using hn) fun x hx => h x (by simp [hx])]
    rfl

/-- The structs of a file. -/
theorem file_read {pkg : Str} (hp : Ident pkg) {ss : List TableStruct} (h : ∀ s ∈ ss, StructOk s)
    {text : Str} (ht : SameTokens text (header pkg ++ structsText ss)) :
    file text = some (ss.map astStruct) := by
  unfold file
  rw [show lex text = _ from ht, lex_file hp h, Option.bind_some]
  show decls ((ss.map astStruct).flatMap structToks).length ((ss.map astStruct).flatMap structToks) = _
  refine decls_read ss _ ?_ h
  clear ht h
  induction ss with
  | nil => simp
  | cons s ss ih =>
    simp only [List.map_cons, List.flatMap_cons, List.length_append, List.length_cons]
    have : 0 < (structToks (astStruct s)).length := by simp [structToks]
    omega

/-! ## Visiting the structs -/

theorem visitField_eq {f : StructField} {a : AstType} (h : FieldOk f a) :
    visitField (astField f a) =
      ({ f with modifiers := (newModifiers (printModifiers f.modifiers)).1 },
        !(newModifiers (printModifiers f.modifiers)).2) := by
  unfold visitField astField
  dsimp only
  by_cases ht : tagText f = []
  · rw [if_pos ht]
    dsimp only
    have h1 := tagGet_sq (f := f)
    have h2 := tagGet_ddl (f := f)
    rw [ht] at h1 h2
    have h1' : f.nameTag = [] := h1.symm
    have h2' : printModifiers f.modifiers = [] := h2.symm
    rw [h2', h.type.text]
    obtain ⟨n, ty, t, m⟩ := f
    simp only at h1'
    subst h1'
    rfl
  · rw [if_neg ht]
    dsimp only
    rw [tagGet_sq, tagGet_ddl, h.type.text]

theorem fieldThroughText_visit {f : StructField} {a : AstType} (h : FieldOk f a)
    (hi : f.name = [] ∨ isIdent f.name = true) :
    fieldThroughText f = if (visitField (astField f a)).2 then none else some (visitField (astField f a)).1 := by
  rw [visitField_eq h]
  unfold fieldThroughText
  dsimp only
  rw [if_neg]
  · cases (newModifiers (printModifiers f.modifiers)).2 <;> rfl
  · rintro (⟨h1, h2⟩ | h1 | h1)
    · rcases hi with hi | hi
      · exact h1 hi
      · rw [hi] at h2; simp at h2
    · exact h.tag h1
    · exact h.ddl h1

theorem isIdent_of {s : Str} (h : Ident s) : isIdent s = true := by
  have e : ∀ c, isLetter c = Letter c := fun c => by unfold isLetter Letter; simp
  unfold isIdent
  rw [Bool.and_eq_true, List.all_eq_true]
  refine ⟨?_, fun c hc => ?_⟩
  · have := h.1
    cases s with
    | nil => simp at this
    | cons c s => simpa [e] using this
  · rw [e]; exact h.2.1 c hc

/-- The fields after the first one. -/
theorem visitFields_rest (name : Str) : ∀ (fs : List StructField) (_ : ∀ f ∈ fs, FieldOk f (astType f.type)),
    (visitFields name false (fs.map fun f => astField f (astType f.type))).2 =
      (fs.mapM fieldThroughText).isNone ∧
    ∀ gs, fs.mapM fieldThroughText = some gs →
      (visitFields name false (fs.map fun f => astField f (astType f.type))).1 = some gs
  | [], _ => ⟨rfl, fun gs h => by simpa [visitFields] using h⟩
  | f :: fs, h => by
    have hf := h f (by simp)
    obtain ⟨h1, h2⟩ := visitFields_rest name fs fun g hg => h g (by simp [hg])
    have hthr := fieldThroughText_visit hf (hf.name.imp id isIdent_of)
    rw [List.map_cons, visitFields, List.mapM_cons, hthr]
    by_cases hb : (visitField (astField f (astType f.type))).2 = true
    · rw [if_pos hb, if_pos hb]
      exact ⟨rfl, fun gs hg => by simp at hg⟩
    · rw [if_neg hb, if_neg hb]
      simp only [Bool.false_eq_true, false_and, if_false]
      refine ⟨?_, fun gs hg => ?_⟩
      · rw [h1]
        cases fs.mapM fieldThroughText <;> rfl
      · cases hm : fs.mapM fieldThroughText with
        | none => rw [hm] at hg; simp at hg
        | some ls =>
          rw [hm] at hg
          rw [h2 ls hm]
          simpa using hg

/-- A struct whose first field is `sq.TableStruct`. -/
theorem visitStruct_eq {s : TableStruct} (h : StructOk s) {f : StructField} {fs : List StructField}
    (hs : s.fields = f :: fs) (hn : f.name = []) (ht : f.type = b!"sq.TableStruct") :
    (visitStruct (astStruct s)).2 = (s.fields.mapM fieldThroughText).isNone ∧
    ∀ gs, s.fields.mapM fieldThroughText = some gs →
      (visitStruct (astStruct s)).1 = some { s with fields := gs } := by
  have hfields := h.fields
  rw [hs] at hfields
  have hf := hfields f (by simp)
  obtain ⟨h1, h2⟩ := visitFields_rest s.name fs fun g hg => hfields g (by simp [hg])
  have hthr := fieldThroughText_visit hf (Or.inl hn)
  have hv : visitStruct (astStruct s) =
      (((visitFields s.name true (s.fields.map fun f => astField f (astType f.type))).1).map
        fun fs => { name := s.name, fields := fs },
       (visitFields s.name true (s.fields.map fun f => astField f (astType f.type))).2) := by
    unfold visitStruct astStruct
    rw [if_neg (by rw [hs]; simp)]
  rw [hv, hs, List.map_cons, visitFields, List.mapM_cons, hthr]
  by_cases hb : (visitField (astField f (astType f.type))).2 = true
  · rw [if_pos hb, if_pos hb]
    exact ⟨rfl, fun gs hg => by simp at hg⟩
  · rw [if_neg hb, if_neg hb, if_neg]
    · refine ⟨?_, fun gs hg => ?_⟩
      · dsimp only
        rw [h1]
        cases fs.mapM fieldThroughText <;> rfl
      · cases hm : fs.mapM fieldThroughText with
        | none => rw [hm] at hg; simp at hg
        | some ls =>
          rw [hm] at hg
          dsimp only
          rw [h2 ls hm]
          obtain rfl : _ :: ls = gs := by simpa using hg
          rfl
    · rw [visitField_eq hf]
      rintro ⟨_, h | h⟩
      · exact h hn
      · exact h ht

/-- Table structs in a file are read as `throughText` says. -/
theorem visitFile_eq : ∀ {ss : List TableStruct} (_ : ∀ s ∈ ss, StructOk s)
    (_ : ∀ s ∈ ss, ∃ f fs, s.fields = f :: fs ∧ f.name = [] ∧ f.type = b!"sq.TableStruct"),
    visitFile (ss.map astStruct) = ss.mapM fun s =>
      if isIdent s.name then (s.fields.mapM fieldThroughText).map fun fs => { s with fields := fs } else none
  | [], _, _ => rfl
  | s :: ss, h, h0 => by
    have ih := visitFile_eq (ss := ss) (fun x hx => h x (by simp [hx])) fun x hx => h0 x (by simp [hx])
    obtain ⟨f, fs, hs, hn, ht⟩ := h0 s (by simp)
    obtain ⟨h1, h2⟩ := visitStruct_eq (h s (by simp)) hs hn ht
    rw [List.mapM_cons, if_pos (isIdent_of (h s (by simp)).name), ← ih]
    unfold visitFile
    dsimp only
    rw [List.map_cons, List.map_cons, List.any_cons, h1]
    cases hm : s.fields.mapM fieldThroughText with
    | none => simp
    | some gs =>
      simp only [Option.isNone_some, Bool.false_or, Option.map_some]
      by_cases hb : (((ss.map astStruct).map visitStruct).any (·.2)) = true
      · rw [if_pos hb, if_pos hb]; rfl
      · rw [if_neg hb, if_neg hb, List.filterMap_cons, h2 gs hm]; rfl

end GoText
