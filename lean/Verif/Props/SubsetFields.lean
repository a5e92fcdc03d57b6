import Verif.Props.SubsetQuery
import Verif.Props.SubsetText

/-!
# The literals of the requested keys in the query: C102
-/

namespace SelectSpec
open Go SqlSpec DdlText Sqddl Sqddl.Subset SubsetSpec SubsetQuerySpec LiteralSpec
open Sqddl.DumpCsv (Value Floats hexEncode_lower lower_not)
open Sqddl.SubsetQuery (Key Clock keyText keyDest scanKey)

variable {F : Type}

theorem fragment_of {d : Dialect} {s : Str} {ts : List Tok} (h : ReadsP d s ts) (hf : flat 0 ts = true) : FieldOk d s := by
  have h1 := h [] (sep_nil d)
  have h2 := h b!";" (sep_simple d ';' [] (by cases d <;> decide) (by decide))
  rw [List.append_nil, lex_nil] at h1
  rw [show lex d b!";" = some [.punct ';'] by cases d <;> decide] at h2
  simp only [Option.map_some, List.append_nil] at h1 h2
  refine ⟨⟨by rw [h1]; rfl, by rw [h1, h2]; rfl⟩, ?_⟩
  unfold toks
  rw [h1]
  exact hf

theorem readsP_quoted {d : Dialect} {body s : Str}
    (h : ∀ rest : Str, rest.head? ≠ some '\'' → readString d (body ++ '\'' :: rest) = some (s, rest)) :
    ReadsP d (b!"'" ++ body ++ b!"'") [.str s] := by
  intro rest hr
  have e : b!"'" ++ body ++ b!"'" ++ rest = '\'' :: (body ++ '\'' :: rest) := by simp
  have h0 : '\'' ≠ openQ d := by cases d <;> decide
  have h1 : isSpace '\'' = false := by decide
  rw [e, lex_cons]
  simp [lexOne, h0, h1, h rest hr.2.1]

theorem field_quoted {d : Dialect} {body s : Str}
    (h : ∀ rest : Str, rest.head? ≠ some '\'' → readString d (body ++ '\'' :: rest) = some (s, rest)) :
    FieldOk d (b!"'" ++ body ++ b!"'") := fragment_of (readsP_quoted h) (by simp [flat, deeper])

theorem field_str {d : Dialect} {s : Str} (h : ¬ HasInnerPair '\'' s) (hb : d = .mysql → '\\' ∉ s) :
    FieldOk d (b!"'" ++ escapeQuote '\'' s ++ b!"'") := by
  refine field_quoted (s := s) fun rest hr => ?_
  rw [escapeQuote_double s h]
  have := readTerm_lit d s rest hr hb
  rw [show sqlLit s ++ rest = '\'' :: (doubleQuotes s ++ '\'' :: rest) by simp [sqlLit]] at this
  exact this

theorem field_plain {d : Dialect} {s : Str} (h : '\'' ∉ s) (hb : d = .mysql → '\\' ∉ s) :
    FieldOk d (b!"'" ++ s ++ b!"'") := by
  have hp : ¬ HasInnerPair '\'' s := by
    rintro ⟨a, c, b, rfl⟩
    simp at h
  have := field_str (d := d) hp hb
  rwa [escapeQuote_double s hp, doubleQuotes_plain h] at this

theorem field_word (d : Dialect) {w : Str} (h0 : w ≠ []) (hw : w.all wordChar = true) : FieldOk d w :=
  fragment_of (reads_word d w h0 hw).readsP (by simp [flat, deeper])

theorem field_int (d : Dialect) (i : Int) : FieldOk d (formatInt i) := by
  have hd : ∀ n : Nat, (Nat.toDigits 10 n).all wordChar = true := by
    intro n
    rw [List.all_eq_true]
    intro c hc
    have := PqArray.toDigits_digits n c hc
    simp only [isDigit, Bool.and_eq_true, decide_eq_true_eq] at this
    simp [wordChar, this]
  cases i with
  | ofNat n => exact field_word d Nat.toDigits_ne_nil (hd n)
  | negSucc n =>
    have hw := (reads_word d (Nat.toDigits 10 (n + 1)) Nat.toDigits_ne_nil (hd _)).readsP
    refine fragment_of (s := '-' :: Nat.toDigits 10 (n + 1)) (ts := [.punct '-', .word (Nat.toDigits 10 (n + 1))]) ?_
      (by simp [flat, deeper])
    intro rest hr
    have h0 : '-' ≠ openQ d := by cases d <;> decide
    have h1 : isSpace '-' = false := by decide
    have h2 : wordChar '-' = false := by decide
    have h3 : (Nat.toDigits 10 (n + 1) ++ rest).head? ≠ some '-' := by
      cases e : Nat.toDigits 10 (n + 1) with
      | nil => exact absurd e Nat.toDigits_ne_nil
      | cons c r =>
        intro e'
        cases e'
        have := PqArray.toDigits_digits (n + 1) '-' (by rw [e]; simp)
        revert this; decide
    rw [List.cons_append, lex_cons]
    simp only [lexOne, h0, h1, h2, h3, if_false, Bool.false_eq_true, and_false,
      show ('-' : Char) ≠ '\'' by decide, show ('-' : Char) ≠ '/' by decide, false_and]
    dsimp only [Option.bind_some]
    rw [hw rest hr]
    cases lex d rest <;> simp

theorem field_hex {d : Dialect} {body : Str} (h : '\'' ∉ body) (hb : d = .mysql → '\\' ∉ body) :
    FieldOk d (b!"x'" ++ body ++ b!"'") := by
  have hp : ¬ HasInnerPair '\'' body := by
    rintro ⟨a, c, b, rfl⟩
    simp at h
  have hq : ReadsP d (b!"'" ++ body ++ b!"'") [.str body] := by
    refine readsP_quoted fun rest hr => ?_
    have := readTerm_lit d body rest hr hb
    rw [show sqlLit body ++ rest = '\'' :: (doubleQuotes body ++ '\'' :: rest) by simp [sqlLit],
      doubleQuotes_plain h] at this
    exact this
  refine fragment_of (ts := [.word b!"x", .str body]) ?_ (by simp [flat, deeper])
  intro rest hr
  have hx := reads_word d b!"x" (by decide) (by decide) (b!"'" ++ body ++ b!"'" ++ rest) (by
    simp [endsToken]; cases d <;> decide)
  rw [show b!"x'" ++ body ++ b!"'" ++ rest = b!"x" ++ (b!"'" ++ body ++ b!"'" ++ rest) by simp, hx, hq rest hr]
  cases lex d rest <;> simp

theorem field_bytes (d : Dialect) {b : Str} (h : CsvSpec.Bytes b) : FieldOk d (Sprint.bytesText d b) := by
  have hl := hexEncode_lower h
  have hq : '\'' ∉ hexEncode b := lower_not hl (by decide)
  have hbs : '\\' ∉ hexEncode b := lower_not hl (by decide)
  unfold Sprint.bytesText
  by_cases hp : d = .postgres
  · subst hp
    rw [if_pos rfl, show b!"'\\x" ++ hexEncode b ++ b!"'" = b!"'" ++ (b!"\\x" ++ hexEncode b) ++ b!"'" from rfl]
    refine field_plain ?_ (by simp)
    simp only [List.mem_append, not_or]
    exact ⟨by decide, hq⟩
  · rw [if_neg hp]
    by_cases hs : d = .sqlserver
    · rw [if_pos hs]
      refine field_word d (by simp) ?_
      rw [List.all_eq_true]
      intro c hc
      rw [List.mem_append] at hc
      rcases hc with hc | hc
      · revert c; decide
      · have := hl c hc
        clear hc
        revert c; decide
    · rw [if_neg hs]
      exact field_hex hq fun _ => hbs

theorem field_bool (d : Dialect) (b : Bool) : FieldOk d (Sprint.boolText d b) := by
  refine field_word d ?_ ?_ <;> cases d <;> cases b <;> decide

/-- The text of a floating point number can stand in a list of values. -/
def FloatField (fl : Floats F) (d : Dialect) : Val F → Prop
  | .float x => FieldOk d (if d = .sqlite then fl.fmtG x else fl.fmtF x)
  | _ => True

theorem key_field (fl : Floats F) (d : Dialect) (hs : d ≠ .sqlite) (ty : Str) (k : Key F) (h : KeyOk fl d k)
    (hf : FloatField fl d (keyValue k)) : FieldOk d (keyText fl d ty k) := by
  cases k with
  | null => exact field_word d (w := b!"NULL") (by decide) (by decide)
  | bytes b => exact field_bytes d h
  | bool b => exact field_bool d b
  | float x => simpa [FloatField, keyValue, hs, keyText] using hf
  | int i => exact field_int d i
  | str s =>
    simp only [keyText, if_neg hs]
    exact field_str h.1 h.2.1
  | time t =>
    rw [time_text h.2]
    exact field_plain (time_quotes t).1 fun _ => (time_quotes t).2.1

/-- The literal of a field can stand in a list of values. -/
theorem field_ok (fl : Floats F) (clock : Clock) (d : Dialect) {ty : Str} {v : Value F} {w : Kind × Val F}
    (hw : want fl d ty v = some w) (hok : ValOk fl d w.2) (hf : FloatField fl d w.2) :
    ∃ key, scanKey fl clock (keyDest d ty) v = some key ∧ FieldOk d (keyText fl d ty key) := by
  unfold want at hw
  by_cases hs : d = .sqlite
  · rw [if_pos hs] at hw
    subst hs
    cases v with
    | null =>
      cases hw
      exact ⟨.null, rfl, show FieldOk _ b!"NULL" from field_word _ (by decide) (by decide)⟩
    | int i =>
      simp only [sqliteMeant] at hw
      split at hw
      · rename_i h
        cases hw
        refine ⟨.str (formatInt i), by simp [scanKey, keyDest, DumpCsv.scan, DumpCsv.asString], ?_⟩
        have e : keyText fl .sqlite ty (.str (formatInt i)) = formatInt i :=
          sqliteText_number (by have := h.1; revert this; clear h; simp; grind)
        rw [e]
        exact field_int _ _
      · cases hw
    | float x =>
      simp only [sqliteMeant] at hw
      split at hw
      · rename_i h
        cases hw
        refine ⟨.str (fl.fmtG x), by simp [scanKey, keyDest, DumpCsv.scan, DumpCsv.asString], ?_⟩
        have e : keyText fl .sqlite ty (.str (fl.fmtG x)) = fl.fmtG x :=
          sqliteText_number (by revert h; simp; grind)
        rw [e]
        simpa [FloatField] using hf
      · cases hw
    | bytes b =>
      simp only [sqliteMeant] at hw
      split at hw
      · rename_i h
        cases hw
        refine ⟨.str b, by simp [scanKey, keyDest, DumpCsv.scan, DumpCsv.asString], ?_⟩
        have e : keyText fl .sqlite ty (.str b) = Sprint.bytesText .sqlite b := by
          simp only [keyText, if_true]
          rcases h with h | ⟨rfl, h⟩
          · unfold SubsetQuery.sqliteText
            rw [if_pos h]; rfl
          · unfold SubsetQuery.sqliteText
            rw [if_neg (by decide), if_neg (by decide), if_pos ⟨rfl, h⟩]; rfl
        rw [e]
        exact field_bytes _ hok
      · cases hw
    | str s =>
      simp only [sqliteMeant] at hw
      split at hw
      · rename_i h
        cases hw
        refine ⟨.str s, by simp [scanKey, keyDest, DumpCsv.scan, DumpCsv.asString], ?_⟩
        have e : keyText fl .sqlite ty (.str s) = b!"'" ++ escapeQuote '\'' s ++ b!"'" := sqliteText_text h
        rw [e]
        exact field_str hok.1 hok.2.1
      · cases hw
    | bool b => cases hw
    | time t => cases hw
  · rw [if_neg hs, Option.bind_eq_some_iff] at hw
    obtain ⟨kd, hk, hw⟩ := hw
    rw [Option.map_eq_some_iff] at hw
    obtain ⟨w, hm, rfl⟩ := hw
    obtain ⟨key, h1, rfl, h2, h3⟩ := scanKey_meant fl clock d hs (keyKind_dest d hs ty kd hk) hm
    exact ⟨key, h1, key_field fl d hs ty key (h3 hok) hf⟩

theorem record_fields (fl : Floats F) (clock : Clock) (d : Dialect) (tys : List Str) (vs : List (Value F))
    (ws : List (Kind × Val F)) (h : IsRow fl d tys vs ws) (hf : ∀ w ∈ ws, FloatField fl d w.2) :
    ∃ fs, SubsetQuery.record fl clock d tys vs = some fs ∧ fs.length = tys.length ∧ ∀ f ∈ fs, FieldOk d f := by
  induction tys generalizing vs ws with
  | nil =>
    cases vs <;> cases ws <;> first | exact ⟨[], rfl, rfl, by simp⟩ | cases h
  | cons ty tys ih =>
    cases vs with
    | nil => cases ws <;> cases h
    | cons v vs =>
      cases ws with
      | nil => cases h
      | cons w ws =>
        obtain ⟨h1, h2, h3⟩ := h
        obtain ⟨key, k1, k2⟩ := field_ok fl clock d h1 h2 (hf w (by simp))
        obtain ⟨fs, f1, f2, f3⟩ := ih vs ws h3 fun x hx => hf x (by simp [hx])
        refine ⟨keyText fl d ty key :: fs, by simp [SubsetQuery.record, k1, f1], by simp [f2], ?_⟩
        intro f hf
        rcases List.mem_cons.mp hf with rfl | hf
        · exact k2
        · exact f3 f hf

/-- C102: what `Subset` writes down for the keys that a subset query selects (C78) is what `subset_query` asks of
a request: as many literals as columns, each of which can stand in a list of values. -/
theorem subset_request (fl : Floats F) (clock : Clock) (d : Dialect) (cat : Cat) (extended : Bool) (base : Sqddl.Subset.Table)
    (pkey tys : List Str) (hb : IsBase cat base pkey) (hk : pkey ≠ []) (hp : ∀ c ∈ pkey, PlainName d c)
    (htys : tys.length = pkey.length) (rows : List (List (Value F))) (hne : rows ≠ [])
    (ws : List (List (Kind × Val F))) (h : AreRows fl d tys rows ws) (hf : ∀ r ∈ ws, ∀ w ∈ r, FloatField fl d w.2) :
    ∃ recs, SubsetQuery.records fl clock d tys rows = some recs ∧ RequestOk d cat ⟨extended, base, pkey, recs⟩ := by
  have key : ∃ recs, SubsetQuery.records fl clock d tys rows = some recs ∧ recs.length = rows.length ∧
      ∀ r ∈ recs, r.length = tys.length ∧ ∀ f ∈ r, FieldOk d f := by
    clear hne
    induction rows generalizing ws with
    | nil => cases ws <;> first | exact ⟨[], rfl, rfl, by simp⟩ | cases h
    | cons r rows ih =>
      cases ws with
      | nil => cases h
      | cons w ws =>
        obtain ⟨f, f1, f2, f3⟩ := record_fields fl clock d tys r w h.1 (hf w (by simp))
        obtain ⟨recs, r1, r2, r3⟩ := ih ws h.2 fun x hx => hf x (by simp [hx])
        refine ⟨f :: recs, ?_, by simp [r2], ?_⟩
        · unfold SubsetQuery.records at r1 ⊢
          simp [f1, r1]
        · intro x hx
          rcases List.mem_cons.mp hx with rfl | hx
          · exact ⟨f2, f3⟩
          · exact r3 x hx
  obtain ⟨recs, h1, h2, h3⟩ := key
  refine ⟨recs, h1, hb, hk, hp, ?_, ?_⟩
  · intro e
    rw [show recs = [] from e] at h2
    exact hne (List.eq_nil_of_length_eq_zero h2.symm)
  · intro r hr
    exact ⟨(h3 r hr).1.trans htys, (h3 r hr).2⟩

end SelectSpec
