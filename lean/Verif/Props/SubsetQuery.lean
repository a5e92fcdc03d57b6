import Verif.Spec.SubsetQuery
import Verif.Props.Literal
import Verif.Props.Quote

/-!
# C78: the selected rows in the query of a subset dump
-/

namespace SubsetQuerySpec
open Go Sqddl Sqddl.DumpCsv Sqddl.SubsetQuery LiteralSpec SqlSpec

variable {F : Type}

/-- A literal that ends before a comma or parenthesis. -/
def IsToken (d : Dialect) (f : Str) : Prop :=
  ∀ rest : Str, (rest.head? = some ',' ∨ rest.head? = some ')') → readField d (f ++ rest) = some (f, rest)

theorem bareToken (d : Dialect) (f : Str) (hf : f ≠ [])
    (h : ∀ c ∈ f, (wordChar c || c ∈ ['-', '+', '.']) = true) : IsToken d f := by
  intro rest hr
  obtain ⟨c, t, rfl⟩ : ∃ c t, f = c :: t := by
    cases f with
    | nil => exact absurd rfl hf
    | cons c t => exact ⟨c, t, rfl⟩
  have hw : ((c :: t) ++ rest).takeWhile (fun c => wordChar c || c ∈ ['-', '+', '.']) = c :: t := by
    rw [List.takeWhile_append_of_pos h]
    have : rest.takeWhile (fun c => wordChar c || c ∈ ['-', '+', '.']) = [] := by
      cases rest with
      | nil => rfl
      | cons x r =>
        simp at hr
        rcases hr with rfl | rfl <;> simp [wordChar]
    rw [this, List.append_nil]
  unfold readField
  split
  · rename_i r e
    cases e
    exact absurd (h '\'' (by simp)) (by decide)
  · rename_i r e
    cases t with
    | nil =>
      simp at e
      obtain ⟨rfl, e⟩ := e
      rw [e] at hr
      simp at hr
    | cons y t =>
      simp at e
      obtain ⟨rfl, rfl, e⟩ := e
      exact absurd (h '\'' (by simp)) (by decide)
  · rw [hw]
    simp

theorem quotedToken (d : Dialect) (body : Str)
    (h : ∀ rest : Str, rest.head? ≠ some '\'' → ∃ v, readString d (body ++ '\'' :: rest) = some (v, rest)) :
    IsToken d (b!"'" ++ body ++ b!"'") := by
  intro rest hr
  obtain ⟨v, hv⟩ := h rest (by rcases hr with h | h <;> rw [h] <;> decide)
  have e : b!"'" ++ body ++ b!"'" ++ rest = '\'' :: (body ++ '\'' :: rest) := by simp
  rw [e]
  simp only [readField, hv, Option.map_some]
  congr 2
  rw [← e]
  simp only [List.length_append, Nat.add_sub_cancel]
  exact List.take_left' (by simp; omega)

theorem hexToken (d : Dialect) (body : Str) (h : '\'' ∉ body) : IsToken d (b!"x'" ++ body ++ b!"'") := by
  intro rest hr
  have hv := readQuoted_doubleQuotes body rest (by rcases hr with h | h <;> rw [h] <;> decide)
  rw [doubleQuotes_plain h] at hv
  have e : b!"x'" ++ body ++ b!"'" ++ rest = 'x' :: '\'' :: (body ++ '\'' :: rest) := by simp
  rw [e]
  simp only [readField, hv, Option.map_some]
  congr 2
  rw [← e]
  simp only [List.length_append, Nat.add_sub_cancel]
  exact List.take_left' (by simp; omega)

/-! ## The rows -/

theorem readFields_join (d : Dialect) (fs : List Str) (hne : fs ≠ []) (ht : ∀ f ∈ fs, IsToken d f) (rest : Str)
    (n : Nat) (hn : fs.length ≤ n) :
    readFields d n (join b!", " fs ++ ')' :: rest) = some (fs, rest) := by
  induction fs generalizing n with
  | nil => exact absurd rfl hne
  | cons f r ih =>
    obtain ⟨n, rfl⟩ : ∃ m, n = m + 1 := ⟨n - 1, by simp at hn; omega⟩
    cases r with
    | nil =>
      have hf := ht f (by simp) (')' :: rest) (by simp)
      simp only [join, readFields, hf, Option.bind_some]
    | cons g r =>
      have hf := ht f (by simp) (b!", " ++ (join b!", " (g :: r) ++ ')' :: rest)) (by simp)
      have ih := ih (by simp) (fun x hx => ht x (by simp [hx])) n (by simpa using hn)
      have e : join b!", " (f :: g :: r) ++ ')' :: rest = f ++ (b!", " ++ (join b!", " (g :: r) ++ ')' :: rest)) := by
        simp [join]
      rw [e, readFields, hf]
      simp only [Option.bind_some, List.cons_append, List.nil_append, ih, Option.map_some]

theorem join_length (sep : Str) (fs : List Str) (h : 1 ≤ sep.length) : fs.length ≤ (join sep fs).length + 1 := by
  induction fs with
  | nil => simp
  | cons f r ih =>
    cases r with
    | nil => simp
    | cons g r => simp [join] at *; omega

theorem readRow_rowText (d : Dialect) (r : List Str) (hne : r ≠ []) (ht : ∀ f ∈ r, IsToken d f) (rest : Str) :
    readRow d (rowText d r ++ rest) = some (r, rest) := by
  have hl := join_length b!", " r (by decide)
  unfold readRow
  by_cases hd : d = .mysql
  · have e : rowText d r ++ rest = b!"ROW(" ++ (join b!", " r ++ ')' :: rest) := by simp [rowText, hd]
    simp only [if_pos hd]
    rw [e, if_pos (by simp)]
    exact readFields_join d r hne ht rest _ (by simp; omega)
  · have e : rowText d r ++ rest = b!"(" ++ (join b!", " r ++ ')' :: rest) := by simp [rowText, hd]
    simp only [if_neg hd]
    rw [e, if_pos (by simp)]
    exact readFields_join d r hne ht rest _ (by simp; omega)

theorem readRows_rowsText (d : Dialect) (tail : Str)
    (htail : (tail.dropWhile fun c => c = ' ' ∨ c = '\n').head? ≠ some ',') (rs : List (List Str)) :
    ∀ (r : List Str) (since : Nat) (n : Nat), (∀ x ∈ r :: rs, x ≠ [] ∧ ∀ f ∈ x, IsToken d f) → rs.length < n →
      readRows d n (rowText d r ++ (rowsText d false since rs ++ tail)) = some (r :: rs, tail) := by
  induction rs with
  | nil =>
    intro r since n h hn
    obtain ⟨n, rfl⟩ : ∃ m, n = m + 1 := ⟨n - 1, by omega⟩
    have hr := h r (by simp)
    simp only [rowsText, List.nil_append, readRows, readRow_rowText d r hr.1 hr.2, Option.bind_some]
    split
    · rename_i x e
      rw [e] at htail
      exact absurd rfl htail
    · rfl
  | cons s rs ih =>
    intro r since n h hn
    obtain ⟨n, rfl⟩ : ∃ m, n = m + 1 := ⟨n - 1, by omega⟩
    have hr := h r (by simp)
    have ih := ih s ((if since > 80 then 8 else since) + (if false then 0 else 1) + (rowText d s).length) n
      (fun x hx => h x (by simp at hx ⊢; right; exact hx)) (by simpa using hn)
    simp only [readRows, readRow_rowText d r hr.1 hr.2, Option.bind_some]
    have e : rowsText d false since (s :: rs) ++ tail = (if since > 80 then b!"\n       " else []) ++
        ',' :: (rowText d s ++ (rowsText d false ((if since > 80 then 8 else since) + (if false then 0 else 1) +
          (rowText d s).length) rs ++ tail)) := by
      simp [rowsText]
    have hd : (rowsText d false since (s :: rs) ++ tail).dropWhile (fun c => c = ' ' ∨ c = '\n') =
        ',' :: (rowText d s ++ (rowsText d false ((if since > 80 then 8 else since) + (if false then 0 else 1) +
          (rowText d s).length) rs ++ tail)) := by
      rw [e]
      by_cases hs : since > 80
      · rw [if_pos hs]; simp
      · rw [if_neg hs]; simp
    rw [hd]
    simp only
    rw [ih]
    rfl

/-- C78 (rows).  The rows of a result are read from the common table expression as the records that
were written: no literal changes what comes after it. -/
theorem result_rows (d : Dialect) (num : Nat) (cols : Str) (records : List (List Str)) (hne : records ≠ [])
    (h : ∀ r ∈ records, r ≠ [] ∧ ∀ f ∈ r, IsToken d f) :
    ∃ pre post, resultText d num cols records = pre ++ (rowsText d true 0 records ++ post) ∧
      (∃ a, pre = a ++ b!"VALUES ") ∧
      readRows d (records.length + 1) (rowsText d true 0 records ++ post) = some (records, post) := by
  obtain ⟨r, rs, rfl⟩ : ∃ r rs, records = r :: rs := by
    cases records with
    | nil => exact absurd rfl hne
    | cons r rs => exact ⟨r, rs, rfl⟩
  have key : ∀ post : Str, (post.dropWhile fun c => c = ' ' ∨ c = '\n').head? ≠ some ',' →
      readRows d ((r :: rs).length + 1) (rowsText d true 0 (r :: rs) ++ post) = some (r :: rs, post) := by
    intro post hp
    have := readRows_rowsText d post hp rs r (0 + 0 + (rowText d r).length) ((r :: rs).length + 1) h (by simp; omega)
    rw [← this]
    congr 1
    simp [rowsText]
  by_cases hd : d = .sqlserver
  · refine ⟨b!"query" ++ itoa (num + 1) ++ b!"_ " ++ b!" AS (\n    SELECT * FROM (VALUES ",
      b!") AS tmp (" ++ cols ++ b!")" ++ b!"\n)\n", by simp [resultText, hd],
      ⟨b!"query" ++ itoa (num + 1) ++ b!"_ " ++ b!" AS (\n    SELECT * FROM (", by simp⟩, key _ (by simp)⟩
  · refine ⟨b!"query" ++ itoa (num + 1) ++ b!"_ " ++ (b!"(" ++ cols ++ b!") AS (\n    VALUES "), b!"\n)\n",
      by simp [resultText, hd], ⟨b!"query" ++ itoa (num + 1) ++ b!"_ " ++ (b!"(" ++ cols ++ b!") AS (\n    "), by simp⟩,
      key _ (by simp)⟩

/-! ## The literals of the fields -/

theorem escapeQuote_double (s : Str) (h : ¬ HasInnerPair '\'' s) : escapeQuote '\'' s = doubleQuotes s := by
  fun_induction escapeQuote '\'' s with
  | case1 => rfl
  | case2 => rfl
  | case3 c hc => simp [doubleQuotes, hc]
  | case4 c ih =>
    rw [ih]
    · simp [doubleQuotes]
    · rintro ⟨a, x, b, e⟩
      have := congrArg List.length e
      simp at this
      omega
  | case5 c e hc ih =>
    rw [ih]
    · simp [doubleQuotes, hc]
    · rintro ⟨a, x, b, e⟩
      have := congrArg List.length e
      simp at this
      omega
  | case6 e r ih => exact absurd ⟨[], e, r, rfl⟩ h
  | case7 x e r hx ih =>
    rw [ih]
    · simp [doubleQuotes]
    · rintro ⟨a, y, b, e⟩
      exact h ⟨'\'' :: a, y, b, by rw [e]; rfl⟩
  | case8 c x e r hc ih =>
    rw [ih]
    · simp [doubleQuotes, hc]
    · rintro ⟨a, y, b, e⟩
      exact h ⟨c :: a, y, b, by rw [e]; rfl⟩

theorem str_text {s : Str} (h : ¬ HasInnerPair '\'' s) : b!"'" ++ escapeQuote '\'' s ++ b!"'" = sqlLit s := by
  rw [escapeQuote_double s h]; simp [sqlLit]

theorem str_token {d : Dialect} {s : Str} (h : ¬ HasInnerPair '\'' s) (hb : d = .mysql → '\\' ∉ s) :
    IsToken d (b!"'" ++ escapeQuote '\'' s ++ b!"'") := by
  refine quotedToken d _ fun rest hr => ⟨s, ?_⟩
  rw [escapeQuote_double s h]
  have := readTerm_lit d s rest hr hb
  rw [show sqlLit s ++ rest = '\'' :: (doubleQuotes s ++ '\'' :: rest) by simp [sqlLit]] at this
  exact this

theorem str_eval {d : Dialect} {s : Str} (h : ¬ HasInnerPair '\'' s) (hb : d = .mysql → '\\' ∉ s) :
    evalString d (b!"'" ++ escapeQuote '\'' s ++ b!"'") = some s := by
  rw [str_text h]
  have ht := readTerm_lit d s [] (by simp) hb
  rw [List.append_nil] at ht
  have hne : b!"CONCAT(".isPrefixOf (sqlLit s) = false := rfl
  cases d <;> simp [evalString, readTerms, ht, hne]

theorem plain_token {d : Dialect} {s : Str} (h : '\'' ∉ s) (hb : d = .mysql → '\\' ∉ s) :
    IsToken d (b!"'" ++ s ++ b!"'") := by
  have hp : ¬ HasInnerPair '\'' s := by
    rintro ⟨a, c, b, rfl⟩
    simp at h
  have := str_token hp hb
  rwa [escapeQuote_double s hp, doubleQuotes_plain h] at this

theorem digit_bare {c : Char} (h : isDigit c = true) : (wordChar c || c ∈ ['-', '+', '.']) = true := by
  simp only [isDigit, Bool.and_eq_true, decide_eq_true_eq] at h
  simp [wordChar, h]

theorem int_token (d : Dialect) (i : Int) : IsToken d (formatInt i) := by
  refine bareToken d _ ?_ ?_
  · intro e
    have := readInt_formatInt i
    rw [e] at this
    cases this
  · intro c hc
    cases i with
    | ofNat n => exact digit_bare (PqArray.toDigits_digits n c hc)
    | negSucc n =>
      rcases List.mem_cons.1 hc with rfl | hc
      · decide
      · exact digit_bare (PqArray.toDigits_digits _ c hc)

theorem numberText_formatInt (i : Int) : NumberText (formatInt i) := by
  have hd : ∀ n : Nat, ∀ c ∈ Nat.toDigits 10 n, isDigit c = true := fun n c hc => PqArray.toDigits_digits n c hc
  cases i with
  | ofNat n =>
    refine ⟨?_, fun c hc => .inl (hd n c hc)⟩
    have : Nat.toDigits 10 n ≠ [] := Nat.toDigits_ne_nil
    show ((Nat.toDigits 10 n).head?.any fun c => isDigit c || c = '-') = true
    cases e : Nat.toDigits 10 n with
    | nil => exact absurd e this
    | cons c r => simp [hd n c (by rw [e]; simp)]
  | negSucc n =>
    refine ⟨rfl, fun c hc => ?_⟩
    rcases List.mem_cons.1 hc with rfl | hc
    · exact .inr (by decide)
    · exact .inl (hd _ c hc)

theorem number_token (d : Dialect) {s : Str} (h : NumberText s) : IsToken d s := by
  refine bareToken d _ ?_ ?_
  · rintro rfl
    exact absurd h.1 (by decide)
  · intro c hc
    rcases h.2 c hc with h | h
    · exact digit_bare h
    · clear hc; revert c; decide

theorem bytes_token (d : Dialect) {b : Str} (h : CsvSpec.Bytes b) : IsToken d (Sprint.bytesText d b) := by
  have hl := hexEncode_lower h
  have hq : '\'' ∉ hexEncode b := lower_not hl (by decide)
  unfold Sprint.bytesText
  by_cases hp : d = .postgres
  · subst hp
    rw [if_pos rfl, show b!"'\\x" ++ hexEncode b ++ b!"'" = b!"'" ++ (b!"\\x" ++ hexEncode b) ++ b!"'" from rfl]
    refine plain_token ?_ (by simp)
    simp only [List.mem_append, not_or]
    exact ⟨by decide, hq⟩
  · rw [if_neg hp]
    by_cases hs : d = .sqlserver
    · rw [if_pos hs]
      refine bareToken d _ (by simp) ?_
      intro c hc
      rw [List.mem_append] at hc
      rcases hc with hc | hc
      · revert c; decide
      · have := hl c hc
        clear hc
        revert c; decide
    · rw [if_neg hs]
      exact hexToken d _ hq

theorem bool_token (d : Dialect) (b : Bool) : IsToken d (Sprint.boolText d b) := by
  refine bareToken d _ ?_ ?_ <;> cases d <;> cases b <;> decide

/-- The keys for which the literal is right. -/
def KeyOk (fl : Floats F) (d : Dialect) : Key F → Prop
  | .bytes b => CsvSpec.Bytes b
  | .str s => ¬ HasInnerPair '\'' s ∧ (d = .mysql → '\\' ∉ s) ∧ (d = .sqlserver → ∀ c ∈ s, c.toNat < 128)
  | .float x => NumberText (fl.fmtF x) ∧ fl.parse (fl.fmtF x) = some x
  | .time t => CsvSpec.IsTime t ∧ t.nano = 0
  | _ => True

theorem time_text {t : Time} (h0 : t.nano = 0) (fl : Floats F) (d : Dialect) (ty : Str) :
    keyText fl d ty (.time t) = b!"'" ++ timeText t ++ b!"'" := by
  simp [keyText, h0]

theorem time_quotes (t : Time) : '\'' ∉ timeText t ∧ '\\' ∉ timeText t ∧ ∀ c ∈ timeText t, isNewline c = false := by
  have hc := timeText_chars t
  refine ⟨fun h => absurd (hc _ h) (by decide), fun h => absurd (hc _ h) (by decide), ?_⟩
  intro c hm
  have h := hc c hm
  clear hc hm
  rcases h with h | h
  · simp [isNewline]; constructor <;> (rintro rfl; revert h; decide)
  · revert c; decide

/-- The literal of a key is a token. -/
theorem key_token (fl : Floats F) (d : Dialect) (hs : d ≠ .sqlite) (ty : Str) (k : Key F) (h : KeyOk fl d k) :
    IsToken d (keyText fl d ty k) := by
  cases k with
  | null => exact bareToken d b!"NULL" (by decide) (by decide)
  | bytes b => exact bytes_token d h
  | bool b => exact bool_token d b
  | float x => exact number_token d h.1
  | int i => exact int_token d i
  | str s =>
    simp only [keyText, if_neg hs]
    exact str_token h.1 h.2.1
  | time t =>
    rw [time_text h.2]
    exact plain_token (time_quotes t).1 fun _ => (time_quotes t).2.1

/-- The literal of a key is read as the key. -/
theorem key_literal (fl : Floats F) (d : Dialect) (hs : d ≠ .sqlite) (hd : d ≠ .oracle) (ty : Str) (k : Key F)
    (h : KeyOk fl d k) (kd : Kind) (hk : IsKind (keyValue k) kd) :
    readLiteral fl.parse d kd (keyText fl d ty k) = some (keyValue k) := by
  cases k with
  | null => exact null_literal _ _ _
  | bytes b => cases kd <;> first | exact bytes_literal _ _ _ hd h | cases hk
  | bool b => cases kd <;> first | exact bool_literal _ _ _ | cases hk
  | float x =>
    cases kd <;> try (cases hk; done)
    unfold readLiteral
    have hne : fl.fmtF x ≠ b!"NULL" := by
      intro e
      have := h.1
      rw [e] at this
      exact absurd this (by decide)
    simp only [keyText, if_neg hne, if_pos h.1, h.2, Option.map_some, keyValue]
  | int i => cases kd <;> first | exact int_literal _ _ _ (fun e => absurd e hs) | cases hk
  | str s =>
    cases kd <;> try (cases hk; done)
    have he := str_eval (d := d) h.1 h.2.1
    simp only [keyText, if_neg hs]
    unfold readLiteral
    rw [if_neg (ne_null_of_eval he)]
    simp only [he, Option.bind_some]
    rw [if_neg (fun hn => hn.2 (h.2.2 hn.1))]
    rfl
  | time t =>
    cases kd <;> try (cases hk; done)
    rw [time_text h.2]
    have he := evalString_quoted d (timeText t) hd (time_quotes t).1 (time_quotes t).2.2 fun _ => (time_quotes t).2.1
    unfold readLiteral
    rw [if_neg (ne_null_of_eval he)]
    simp only [he, Option.bind_some, readStamp_plain t h.1, Option.map_some, keyValue]
    rw [show { t with nano := 0 } = t by rw [← h.2]]

/-- The kind of what is scanned. -/
def destKind : Dest → Option Kind
  | .bytes => some .bytes
  | .bool => some .bool
  | .float => some .float
  | .int => some .int
  | .str => some .text
  | .time => some .time
  | _ => none

/-- What is scanned for a type is of the kind with which its columns are compared. -/
theorem keyKind_dest (d : Dialect) (hs : d ≠ .sqlite) (ty : Str) (kd : Kind) (hk : keyKind d ty = some kd) :
    destKind (keyDest d ty) = some kd := by
  unfold keyDest
  rw [if_neg hs]
  revert hk
  unfold keyKind
  split
  · rename_i h
    split
    · intro e; cases e
    · intro e; cases e
      clear hs
      revert ty; decide
  split
  · rename_i h
    intro e; cases e
    rcases h with rfl | ⟨rfl, _⟩ <;> decide
  split
  · rename_i h
    intro e; cases e
    rcases h with h | ⟨rfl, _⟩
    · simp at h
      rcases h with rfl | rfl <;> decide
    · decide
  split
  · rename_i h
    intro e; cases e
    rcases h with h | ⟨h, _⟩
    · simp at h
      rcases h with rfl | rfl | rfl | rfl <;> decide
    · simp at h
      rcases h with rfl | rfl <;> decide
  split
  · rename_i h
    intro e; cases e
    rcases h with h | ⟨h, _⟩
    · simp at h
      rcases h with rfl | rfl | rfl <;> decide
    · simp at h
      rcases h with rfl | rfl | rfl | rfl <;> decide
  split
  · rename_i h
    split
    · intro e; cases e
    · intro e; cases e
      simp at h
      rcases h with rfl | rfl | rfl | rfl | rfl <;> decide
  split
  · rename_i h
    split
    · intro e; cases e
    · intro e; cases e
      simp at h
      rcases h with rfl | rfl <;> decide
  · intro e; cases e

/-- What Go reads from digits is the number. -/
theorem parseInt64_of_readInt {s : Str} {i : Int} (h : readInt s = some i) (h1 : -2 ^ 63 ≤ i) (h2 : i < 2 ^ 63) :
    parseInt64 s = some i := by
  unfold readInt at h
  unfold parseInt64 parseDigits
  split at h
  · rename_i r
    split at h
    · rename_i hc
      cases h
      simp only [if_pos hc]
      rw [if_pos (by omega)]
    · cases h
  · rename_i r hne
    split at h
    · rename_i hc
      cases h
      split
      · exact absurd rfl (hne _)
      · exact absurd hc.2 (by simp; intro hp; exact absurd hp (by decide))
      · simp only [if_pos hc]
        rw [if_pos (by omega)]
    · cases h

/-- What the driver returns is scanned to the value. -/
theorem scanKey_meant (fl : Floats F) (clock : Clock) (d : Dialect) (hs : d ≠ .sqlite) {dst : Dest} {kd : Kind}
    (hk : destKind dst = some kd) {v : Value F} {w : Val F} (hm : meant fl kd v = some w) :
    ∃ key, scanKey fl clock dst v = some key ∧ keyValue key = w ∧ IsKind w kd ∧ (ValOk fl d w → KeyOk fl d key) := by
  cases v with
  | null =>
    simp only [meant, Option.some.injEq] at hm
    subst hm
    exact ⟨.null, rfl, rfl, by cases kd <;> trivial, fun _ => trivial⟩
  | int i =>
    cases kd <;> simp only [meant, reduceCtorEq, Option.some.injEq] at hm
    · cases dst <;> try (cases hk; done)
      by_cases h0 : i = 0
      · rw [if_pos h0] at hm; cases hm
        exact ⟨.bool false, by simp [scanKey, scan, h0], rfl, trivial, fun _ => trivial⟩
      · rw [if_neg h0] at hm
        by_cases h1 : i = 1
        · rw [if_pos h1] at hm; cases hm
          exact ⟨.bool true, by simp [scanKey, scan, h1], rfl, trivial, fun _ => trivial⟩
        · rw [if_neg h1] at hm; cases hm
    · cases dst <;> try (cases hk; done)
      subst hm
      exact ⟨.int i, by simp [scanKey, scan], rfl, trivial, fun _ => trivial⟩
  | float x =>
    cases kd <;> simp only [meant, reduceCtorEq, Option.some.injEq] at hm
    cases dst <;> try (cases hk; done)
    subst hm
    refine ⟨.float x, by simp [scanKey, scan], rfl, trivial, fun h => ?_⟩
    simpa [ValOk, if_neg hs, KeyOk] using h
  | bool b =>
    cases kd <;> simp only [meant, reduceCtorEq, Option.some.injEq] at hm
    cases dst <;> try (cases hk; done)
    subst hm
    exact ⟨.bool b, by simp [scanKey, scan], rfl, trivial, fun _ => trivial⟩
  | bytes s =>
    cases kd <;> simp only [meant, reduceCtorEq, Option.some.injEq] at hm
    · cases dst <;> try (cases hk; done)
      rw [Option.bind_eq_some_iff] at hm
      obtain ⟨i, hi, hm⟩ := hm
      split at hm
      · rename_i hr
        cases hm
        have := parseInt64_of_readInt hi hr.1 hr.2
        exact ⟨.int i, by simp [scanKey, scan, asString, this], rfl, trivial, fun _ => trivial⟩
      · cases hm
    · cases dst <;> try (cases hk; done)
      rw [Option.map_eq_some_iff] at hm
      obtain ⟨x, hx, rfl⟩ := hm
      refine ⟨.float x, by simp [scanKey, scan, asString, hx], rfl, trivial, fun h => ?_⟩
      simpa [ValOk, if_neg hs, KeyOk] using h
    · cases dst <;> try (cases hk; done)
      subst hm
      exact ⟨.bytes s, by simp [scanKey, scan, asString], rfl, trivial, id⟩
    · cases dst <;> try (cases hk; done)
      subst hm
      exact ⟨.str s, by simp [scanKey, scan, asString], rfl, trivial, id⟩
  | str s =>
    cases kd <;> simp only [meant, reduceCtorEq, Option.some.injEq] at hm
    cases dst <;> try (cases hk; done)
    subst hm
    exact ⟨.str s, by simp [scanKey, scan, asString], rfl, trivial, id⟩
  | time t =>
    cases kd <;> simp only [meant, reduceCtorEq, Option.some.injEq] at hm
    cases dst <;> try (cases hk; done)
    split at hm
    · rename_i ht
      cases hm
      exact ⟨.time t, by simp [scanKey], rfl, trivial, fun _ => ht⟩
    · cases hm

theorem sqliteText_number {fl : Floats F} {ty s : Str}
    (h : ty ∈ [b!"BOOLEAN", b!"BIT", b!"NUMERIC", b!"FLOAT", b!"REAL", b!"DOUBLE PRECISION", b!"TINYINT", b!"SMALLINT",
      b!"MEDIUMINT", b!"INT", b!"INTEGER", b!"BIGINT"]) : keyText fl .sqlite ty (.str s) = s := by
  simp only [keyText, if_true]
  unfold sqliteText
  rw [if_neg (by revert h; revert ty; decide), if_pos h]

theorem sqliteText_text {fl : Floats F} {ty s : Str}
    (h : ty ∈ [b!"TEXT", b!"CHAR", b!"VARCHAR", b!"NVARCHAR", b!"JSON"]) :
    keyText fl .sqlite ty (.str s) = b!"'" ++ escapeQuote '\'' s ++ b!"'" := by
  have h1 : ty ∉ [b!"BINARY", b!"VARBINARY", b!"TINYBLOB", b!"BLOB", b!"MEDIUMBLOB", b!"LONGBLOB"] := by
    revert h; revert ty; decide
  have h2 : ty ∉ [b!"BOOLEAN", b!"BIT", b!"NUMERIC", b!"FLOAT", b!"REAL", b!"DOUBLE PRECISION", b!"TINYINT",
      b!"SMALLINT", b!"MEDIUMINT", b!"INT", b!"INTEGER", b!"BIGINT"] := by
    clear h1; revert h; revert ty; decide
  have h3 : ty ∉ [b!"DATE", b!"TIME", b!"TIMETZ", b!"DATETIME", b!"DATETIME2", b!"SMALLDATETIME",
      b!"DATETIMEOFFSET", b!"TIMESTAMP", b!"TIMESTAMPTZ"] := by
    clear h1 h2; revert h; revert ty; decide
  have h4 : ty ≠ b!"UUID" := by rintro rfl; exact absurd h (by decide)
  simp only [keyText, if_true]
  unfold sqliteText
  rw [if_neg h1, if_neg h2, if_neg (fun h => h4 h.1), if_neg (fun h => h3 h.1)]

/-- The literal of a field. -/
theorem field_literal (fl : Floats F) (clock : Clock) (d : Dialect) (hd : d ≠ .oracle) {ty : Str} {v : Value F}
    {w : Kind × Val F} (hw : want fl d ty v = some w) (hok : ValOk fl d w.2) :
    ∃ key, scanKey fl clock (keyDest d ty) v = some key ∧ IsToken d (keyText fl d ty key) ∧
      readLiteral fl.parse d w.1 (keyText fl d ty key) = some w.2 := by
  unfold want at hw
  by_cases hs : d = .sqlite
  · rw [if_pos hs] at hw
    subst hs
    cases v with
    | null =>
      cases hw
      exact ⟨.null, rfl, show IsToken _ b!"NULL" from bareToken _ _ (by decide) (by decide), rfl⟩
    | int i =>
      simp only [sqliteMeant] at hw
      split at hw
      · rename_i h
        cases hw
        refine ⟨.str (formatInt i), by simp [scanKey, keyDest, scan, asString], ?_⟩
        have e : keyText fl .sqlite ty (.str (formatInt i)) = formatInt i :=
          sqliteText_number (by have := h.1; revert this; clear h; simp; grind)
        rw [e]
        exact ⟨int_token _ _, int_literal _ _ _ fun _ => h.2⟩
      · cases hw
    | float x =>
      simp only [sqliteMeant] at hw
      split at hw
      · rename_i h
        cases hw
        refine ⟨.str (fl.fmtG x), by simp [scanKey, keyDest, scan, asString], ?_⟩
        have e : keyText fl .sqlite ty (.str (fl.fmtG x)) = fl.fmtG x :=
          sqliteText_number (by revert h; simp; grind)
        rw [e]
        simp only [ValOk, if_true] at hok
        refine ⟨number_token _ hok.1, ?_⟩
        unfold readLiteral
        have hne : fl.fmtG x ≠ b!"NULL" := by
          intro e
          have := hok.1
          rw [e] at this
          exact absurd this (by decide)
        simp only [if_neg hne, if_pos hok.1, hok.2, Option.map_some]
      · cases hw
    | bytes b =>
      simp only [sqliteMeant] at hw
      split at hw
      · rename_i h
        cases hw
        refine ⟨.str b, by simp [scanKey, keyDest, scan, asString], ?_⟩
        have e : keyText fl .sqlite ty (.str b) = Sprint.bytesText .sqlite b := by
          simp only [keyText, if_true]
          rcases h with h | ⟨rfl, h⟩
          · unfold sqliteText
            rw [if_pos h]; rfl
          · unfold sqliteText
            rw [if_neg (by decide), if_neg (by decide), if_pos ⟨rfl, h⟩]; rfl
        rw [e]
        exact ⟨bytes_token _ hok, bytes_literal _ _ _ hd hok⟩
      · cases hw
    | str s =>
      simp only [sqliteMeant] at hw
      split at hw
      · rename_i h
        cases hw
        refine ⟨.str s, by simp [scanKey, keyDest, scan, asString], ?_⟩
        have e : keyText fl .sqlite ty (.str s) = b!"'" ++ escapeQuote '\'' s ++ b!"'" := sqliteText_text h
        rw [e]
        have he := str_eval (d := .sqlite) hok.1 hok.2.1
        refine ⟨str_token hok.1 hok.2.1, ?_⟩
        unfold readLiteral
        rw [if_neg (ne_null_of_eval he)]
        simp only [he, Option.bind_some]
        rfl
      · cases hw
    | bool b => cases hw
    | time t => cases hw
  · rw [if_neg hs, Option.bind_eq_some_iff] at hw
    obtain ⟨kd, hk, hw⟩ := hw
    rw [Option.map_eq_some_iff] at hw
    obtain ⟨w, hm, rfl⟩ := hw
    obtain ⟨key, h1, rfl, h2, h3⟩ := scanKey_meant fl clock d hs (keyKind_dest d hs ty kd hk) hm
    exact ⟨key, h1, key_token fl d hs ty key (h3 hok), key_literal fl d hs hd ty key (h3 hok) kd h2⟩

theorem record_literals (fl : Floats F) (clock : Clock) (d : Dialect) (hd : d ≠ .oracle) (tys : List Str)
    (vs : List (Value F)) (ws : List (Kind × Val F)) (h : IsRow fl d tys vs ws) :
    ∃ fs, record fl clock d tys vs = some fs ∧ fs.length = tys.length ∧ (∀ f ∈ fs, IsToken d f) ∧ ReadsRow fl d ws fs := by
  induction tys generalizing vs ws with
  | nil =>
    cases vs <;> cases ws <;> first | exact ⟨[], rfl, rfl, by simp, trivial⟩ | cases h
  | cons ty tys ih =>
    cases vs with
    | nil => cases ws <;> cases h
    | cons v vs =>
      cases ws with
      | nil => cases h
      | cons w ws =>
        obtain ⟨h1, h2, h3⟩ := h
        obtain ⟨key, k1, k2, k3⟩ := field_literal fl clock d hd h1 h2
        obtain ⟨fs, f1, f2, f3, f4⟩ := ih vs ws h3
        refine ⟨keyText fl d ty key :: fs, by simp [record, k1, f1], by simp [f2], ?_, k3, f4⟩
        intro f hf
        rcases List.mem_cons.mp hf with rfl | hf
        · exact k2
        · exact f3 f hf

theorem records_literals (fl : Floats F) (clock : Clock) (d : Dialect) (hd : d ≠ .oracle) (tys : List Str)
    (rows : List (List (Value F))) (ws : List (List (Kind × Val F))) (h : AreRows fl d tys rows ws) :
    ∃ recs, records fl clock d tys rows = some recs ∧ recs.length = rows.length ∧
      (∀ r ∈ recs, r.length = tys.length ∧ ∀ f ∈ r, IsToken d f) ∧ ReadsRows fl d ws recs := by
  induction rows generalizing ws with
  | nil => cases ws <;> first | exact ⟨[], rfl, rfl, by simp, trivial⟩ | cases h
  | cons r rows ih =>
    cases ws with
    | nil => cases h
    | cons w ws =>
      obtain ⟨f, f1, f2, f3, f4⟩ := record_literals fl clock d hd tys r w h.1
      obtain ⟨recs, r1, r2, r3, r4⟩ := ih ws h.2
      refine ⟨f :: recs, ?_, by simp [r2], ?_, f4, r4⟩
      · unfold records at r1 ⊢
        simp [f1, r1]
      · intro x hx
        rcases List.mem_cons.mp hx with rfl | hx
        · exact ⟨f2, f3⟩
        · exact r3 x hx

/-- C78.  If a subset query selects at least one row, and the values of the primary keys are fine, then
the keys that the query of the dump lists after `VALUES` are those of the rows, row by row and in order.
Missing: an empty result, and the values and types that `AreRows` excludes; see the refutations. -/
theorem subset_keys_partial (fl : Floats F) (clock : Clock) (d : Dialect) (hd : d ≠ .oracle) (num : Nat) (cols : Str)
    (tys : List Str) (htys : tys ≠ []) (rows : List (List (Value F))) (hne : rows ≠ [])
    (ws : List (List (Kind × Val F))) (h : AreRows fl d tys rows ws) :
    ∃ recs pre post rest, records fl clock d tys rows = some recs ∧
      resultText d num cols recs = pre ++ b!"VALUES " ++ post ∧
      readRows d (rows.length + 1) post = some (recs, rest) ∧ ReadsRows fl d ws recs := by
  obtain ⟨recs, r1, r2, r3, r4⟩ := records_literals fl clock d hd tys rows ws h
  obtain ⟨pre, post, e, ⟨a, ha⟩, hr⟩ := result_rows d num cols recs (by
      intro e; rw [e] at r2; cases rows with
      | nil => exact hne rfl
      | cons => simp at r2) fun r hr => ⟨by
        intro e
        have := (r3 r hr).1
        rw [e] at this
        cases tys with
        | nil => exact htys rfl
        | cons => simp at this, (r3 r hr).2⟩
  refine ⟨recs, a, _, post, r1, by rw [e, ha], ?_, r4⟩
  rw [← r2]
  exact hr

theorem noPair {s : Str} (h : readQuoted '\'' (escapeQuote '\'' s ++ '\'' :: []) = some (s, [])) : ¬ HasInnerPair '\'' s :=
  (Sqddl.escapeQuote_reads_back_iff_partial '\'' s [] (by decide)).mp h

/-- The clock of the samples. -/
def noClock : Clock := ⟨fun _ => ⟨1970, 1, 1, 0, 0, 0, 0⟩, fun _ => none⟩

example : AreRows halves .mysql [b!"BIGINT", b!"VARCHAR"]
      [[.bytes b!"7", .bytes b!"it's, (ok)"], [.int (-8), .str []]]
      [[(.int, .int 7), (.text, .text b!"it's, (ok)")], [(.int, .int (-8)), (.text, .text [])]] ∧
    records halves noClock .mysql [b!"BIGINT", b!"VARCHAR"] [[.bytes b!"7", .bytes b!"it's, (ok)"], [.int (-8), .str []]] =
      some [[b!"7", b!"'it''s, (ok)'"], [b!"-8", b!"''"]] ∧
    resultText .mysql 0 b!"id, code" [[b!"7", b!"'it''s, (ok)'"], [b!"-8", b!"''"]] =
      b!"query1_ (id, code) AS (\n    VALUES ROW(7, 'it''s, (ok)'),ROW(-8, '')\n)\n" :=
  ⟨⟨⟨by decide +kernel, trivial, by decide +kernel, ⟨noPair (by decide +kernel), by decide, by decide⟩, trivial⟩,
    ⟨by decide +kernel, trivial, by decide +kernel, ⟨noPair (by decide +kernel), by decide, by decide⟩, trivial⟩, trivial⟩,
    by decide +kernel, by decide +kernel⟩

example : AreRows halves .sqlite [b!"UUID", b!"REAL"] [[.bytes b!"0123456789abcdef", .float 3]]
      [[(.bytes, .bytes b!"0123456789abcdef"), (.float, .float 3)]] :=
  ⟨⟨by decide +kernel, show CsvSpec.Bytes _ by decide, by decide +kernel, ⟨by decide +kernel, by decide +kernel⟩, trivial⟩, trivial⟩

/-! ## Postgres compares by types -/

/-- C78.  In Postgres the literals of keys that are not NULL have the type of their columns, if these are
numbers, texts or booleans. -/
theorem subset_keys_comparable (fl : Floats F) (clock : Clock) (ty : Str) (kd : Kind) (v : Value F) (w : Val F)
    (hk : keyKind .postgres ty = some kd) (hm : meant fl kd v = some w) (hw : w ≠ .null) (hok : ValOk fl .postgres w) :
    ∃ key, scanKey fl clock (keyDest .postgres ty) v = some key ∧ pgEquals ty (keyText fl .postgres ty key) = true := by
  obtain ⟨key, h1, rfl, h2, h3⟩ := scanKey_meant fl clock .postgres (by decide) (keyKind_dest .postgres (by decide) ty kd hk) hm
  refine ⟨key, h1, ?_⟩
  have hnum : ∀ s : Str, NumberText s → s.head? ≠ some '\'' ∧ s ≠ b!"NULL" ∧ s ≠ b!"TRUE" ∧ s ≠ b!"FALSE" := by
    intro s hs
    refine ⟨?_, ?_, ?_, ?_⟩ <;> intro e
    · cases s with
      | nil => cases e
      | cons c r =>
        cases e
        exact absurd hs.1 (by simp; decide)
    all_goals
      rw [e] at hs
      exact absurd hs (by decide)
  have hty : (kd = .text → ty ∈ [b!"TEXT", b!"CHAR", b!"VARCHAR"]) ∧ (kd = .bool → ty = b!"BOOLEAN") ∧
      ((kd = .int ∨ kd = .float) → ty ∈ [b!"SMALLINT", b!"INT", b!"INTEGER", b!"BIGINT", b!"NUMERIC", b!"REAL",
        b!"DOUBLE PRECISION"]) ∧ kd ≠ .bytes ∧ kd ≠ .time := by
    clear hm h2 h1 h3 hok hw hnum
    revert hk
    unfold keyKind
    simp only [if_true, reduceCtorEq, and_false, or_false, not_true_eq_false, ne_eq]
    split
    · intro h; cases h
    split
    · rename_i h
      subst h
      intro h; cases h
      exact ⟨nofun, fun _ => rfl, nofun, nofun, nofun⟩
    split
    · rename_i h
      intro h; cases h
      refine ⟨nofun, nofun, fun _ => ?_, nofun, nofun⟩
      simp only [List.mem_cons] at h ⊢; grind
    split
    · rename_i h
      intro h; cases h
      refine ⟨nofun, nofun, fun _ => ?_, nofun, nofun⟩
      simp only [List.mem_cons] at h ⊢; grind
    split
    · rename_i h
      intro h; cases h
      exact ⟨fun _ => h, nofun, nofun, nofun, nofun⟩
    split
    · intro h; cases h
    split
    · intro h; cases h
    · intro h; cases h
  cases key with
  | null => exact absurd rfl hw
  | bytes b => cases kd <;> first | exact absurd rfl hty.2.2.2.1 | cases h2
  | time t => cases kd <;> first | exact absurd rfl hty.2.2.2.2 | cases h2
  | bool b =>
    cases kd <;> try (cases h2; done)
    rw [hty.2.1 rfl]
    cases b <;> rfl
  | float x =>
    cases kd <;> try (cases h2; done)
    obtain ⟨n1, n2, n3, n4⟩ := hnum _ (h3 hok).1
    have e : keyText fl .postgres ty (.float x) = fl.fmtF x := rfl
    unfold pgEquals
    rw [e, if_neg (by simp only [n1, n2, or_self, not_false_eq_true]), if_neg (by simp only [n3, n4, or_self, not_false_eq_true])]
    exact decide_eq_true (hty.2.2.1 (.inr rfl))
  | int i =>
    cases kd <;> try (cases h2; done)
    obtain ⟨n1, n2, n3, n4⟩ := hnum _ (numberText_formatInt i)
    have e : keyText fl .postgres ty (.int i) = formatInt i := rfl
    unfold pgEquals
    rw [e, if_neg (by simp only [n1, n2, or_self, not_false_eq_true]), if_neg (by simp only [n3, n4, or_self, not_false_eq_true])]
    exact decide_eq_true (hty.2.2.1 (.inl rfl))
  | str s =>
    cases kd <;> try (cases h2; done)
    unfold pgEquals
    rw [if_pos (.inl (by simp [keyText]))]
    exact decide_eq_true (hty.1 rfl)

example : keyKind .postgres b!"VARCHAR" = some .text ∧
    meant halves .text (.str b!"it's") = some (.text b!"it's") ∧ ValOk halves .postgres (.text b!"it's") ∧
    pgEquals b!"VARCHAR" b!"'it''s'" = true :=
  ⟨by decide +kernel, rfl, ⟨noPair (by decide +kernel), by decide, by decide⟩, by decide +kernel⟩

/-! ## What does not hold -/

/-- C78 fails for a query without rows: no row follows `VALUES`, which is not SQL. -/
theorem subset_empty_refuted (d : Dialect) (num : Nat) (cols : Str) :
    ∃ pre post, resultText d num cols [] = pre ++ b!"VALUES " ++ post ∧ ∀ n, readRows d n post = none := by
  have key : ∀ c : Char, c ≠ '(' → c ≠ 'R' → ∀ s n, readRows d n (c :: s) = none := by
    intro c h1 h2 s n
    cases n with
    | zero => rfl
    | succ n =>
      have : readRow d (c :: s) = none := by
        unfold readRow
        rw [if_neg]
        split <;> simp [List.isPrefixOf] <;> simp_all [eq_comm]
      simp [readRows, this]
  by_cases hd : d = .sqlserver
  · exact ⟨b!"query" ++ itoa (num + 1) ++ b!"_ " ++ b!" AS (\n    SELECT * FROM (", b!") AS tmp (" ++ cols ++ b!")\n)\n",
      by simp [resultText, rowsText, hd], fun n => key _ (by decide) (by decide) _ _⟩
  · exact ⟨b!"query" ++ itoa (num + 1) ++ b!"_ (" ++ cols ++ b!") AS (\n    ", b!"\n)\n",
      by simp [resultText, rowsText, hd], fun n => key _ (by decide) (by decide) _ _⟩

/-- C78 fails for a text with two quotes in a row: the literal is that of another text. -/
theorem subset_pair_refuted :
    records halves noClock .postgres [b!"TEXT"] [[.str b!"rock''n"]] = some [[b!"'rock''n'"]] ∧
    readLiteral halves.parse .postgres .text b!"'rock''n'" = some (.text b!"rock'n") := by
  decide +kernel

/-- C78 fails in MySQL for a backslash: the literal is that of another text, or does not end. -/
theorem subset_backslash_refuted :
    records halves noClock .mysql [b!"VARCHAR"] [[.bytes b!"a\\b"], [.bytes b!"c\\"]] =
      some [[b!"'a\\b'"], [b!"'c\\'"]] ∧
    readLiteral halves.parse .mysql .text b!"'a\\b'" ≠ some (.text b!"a\\b") ∧
    readRow .mysql (rowText .mysql [b!"'c\\'"]) = none := by
  decide +kernel

/-- C78 fails for a time with a fraction of whole milliseconds: it is cut off. -/
theorem subset_fraction_refuted :
    records halves noClock .mysql [b!"DATETIME"] [[.time ⟨2020, 1, 2, 12, 0, 0, 500000000⟩]] =
      some [[b!"'2020-01-02 12:00:00'"]] ∧
    readLiteral halves.parse .mysql .time b!"'2020-01-02 12:00:00'" ≠
      some (.time (instant ⟨2020, 1, 2, 12, 0, 0, 500000000⟩ 0)) := by
  decide +kernel

/-- C78 fails in Postgres for keys that are compared with no `text`: the query is refused. -/
theorem subset_uuid_refuted :
    records halves noClock .postgres [b!"UUID"] [[.bytes b!"a0eebc99-9c0b-4ef8-bb6d-6bb9bd380a11"]] =
      some [[b!"'a0eebc99-9c0b-4ef8-bb6d-6bb9bd380a11'"]] ∧
    pgEquals b!"UUID" b!"'a0eebc99-9c0b-4ef8-bb6d-6bb9bd380a11'" = false ∧
    records halves noClock .postgres [b!"DATE"] [[.time ⟨2020, 1, 2, 0, 0, 0, 0⟩]] = some [[b!"'2020-01-02 00:00:00'"]] ∧
    pgEquals b!"DATE" b!"'2020-01-02 00:00:00'" = false := by
  decide +kernel

/-- C78 fails in SQLite for a text in a column of numbers: it is written as it is, and read as other
rows. -/
theorem subset_raw_text_refuted :
    records halves noClock .sqlite [b!"INTEGER"] [[.str b!"1),(2"]] = some [[b!"1),(2"]] ∧
    (readRows .sqlite 9 (rowsText .sqlite true 0 [[b!"1),(2"]])).map (·.1) = some [[b!"1"], [b!"2"]] := by
  decide +kernel

/-- C78 fails in SQLite for columns whose values the driver returns as times: the text has the form of
RFC 3339, whatever the column stores. -/
theorem subset_sqlite_time_refuted :
    records halves noClock .sqlite [b!"TIMESTAMP"] [[.time ⟨2020, 1, 2, 3, 4, 5, 0⟩]] =
      some [[b!"'2020-01-02T03:04:05Z'"]] ∧
    readLiteral halves.parse .sqlite .text b!"'2020-01-02T03:04:05Z'" ≠ some (.text b!"2020-01-02 03:04:05") := by
  decide +kernel

/-- C78 fails for decimal numbers that are the same as floating point numbers: one key is listed twice,
the other not at all. -/
theorem subset_numeric_refuted (fl : Floats F) (clock : Clock) (a b : Str) (hab : fl.parse a = fl.parse b) :
    record fl clock .postgres [b!"NUMERIC"] [.bytes a] = record fl clock .postgres [b!"NUMERIC"] [.bytes b] := by
  have hd : keyDest .postgres b!"NUMERIC" = .float := by decide
  simp [record, hd, scanKey, scan, asString, hab]

/-- C78 fails for a query that breaks off: the rows that came before are taken for the result. -/
theorem subset_broken_refuted :
    records halves noClock .postgres [b!"BIGINT"] ([[.int 1], [.int 2], [.int 3]].take 2) = some [[b!"1"], [b!"2"]] := by
  decide +kernel

end SubsetQuerySpec
