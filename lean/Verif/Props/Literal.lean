import Verif.Lemmas.Literal

/-!
# C76, C77: the literals of values of all types, and `Timestamp`
-/

namespace LiteralSpec
open Go Sqddl Sqddl.DumpCsv Sqddl.Sprint CsvSpec SqlSpec

variable {F : Type}

theorem null_literal (parse : Str → Option F) (d : Dialect) (k : Kind) :
    readLiteral parse d k b!"NULL" = some .null := if_pos rfl

theorem bool_literal (parse : Str → Option F) (d : Dialect) (b : Bool) :
    readLiteral parse d .bool (boolText d b) = some (.bool b) := by
  cases d <;> cases b <;> rfl

theorem int_literal (parse : Str → Option F) (d : Dialect) (i : Int) (h : IntOk d i) :
    readLiteral parse d .int (formatInt i) = some (.int i) := by
  unfold readLiteral
  rw [if_neg (formatInt_ne_null i)]
  simp only [readInt_formatInt, Option.bind_some]
  rw [if_neg (fun hn => hn.2 (h hn.1))]

theorem float_literal (fl : Floats F) (d : Dialect) (x : F) (h : FloatOk fl x) :
    readLiteral fl.parse d .float (fl.fmtG x) = some (.float x) := by
  unfold readLiteral
  have hne : fl.fmtG x ≠ b!"NULL" := by
    intro e
    have := h.1
    rw [e] at this
    exact absurd this (by decide)
  rw [if_neg hne]
  simp only [if_pos h.1, h.2, Option.map_some]

theorem evalString_null (d : Dialect) : evalString d b!"NULL" = none := by
  cases d <;> decide +kernel

theorem ne_null_of_eval {d : Dialect} {s t : Str} (h : evalString d s = some t) : s ≠ b!"NULL" := by
  rintro rfl
  rw [evalString_null] at h
  cases h

theorem text_literal (parse : Str → Option F) (d : Dialect) (s : Str) (hd : d ≠ .oracle) (h : TextOk d s) :
    readLiteral parse d .text (sprintString d s) = some (.text s) := by
  have he := sprintString_evaluates_partial d s hd h.1 fun e => (h.2 e).2
  unfold readLiteral
  rw [if_neg (ne_null_of_eval he)]
  simp only [he, Option.bind_some]
  rw [if_neg]
  rintro ⟨e, hn⟩
  exact hn (h.2 e).1

theorem bytes_literal (parse : Str → Option F) (d : Dialect) (b : Str) (hd : d ≠ .oracle) (h : Bytes b) :
    readLiteral parse d .bytes (bytesText d b) = some (.bytes b) := by
  have hh := readHex_hexEncode h
  have hl := hexEncode_lower h
  unfold bytesText
  by_cases hp : d = .postgres
  · subst hp
    have he : evalString .postgres (b!"'" ++ (b!"\\x" ++ hexEncode b) ++ b!"'") = some (b!"\\x" ++ hexEncode b) := by
      refine evalString_quoted .postgres _ hd ?_ ?_ (by simp)
      · simp only [List.mem_append, not_or]
        exact ⟨by decide, lower_not hl (by decide)⟩
      · intro c hc
        rw [List.mem_append] at hc
        rcases hc with hc | hc
        · revert c; decide
        · have := hl c hc
          clear hc
          revert c; decide
    have e : b!"'\\x" ++ hexEncode b ++ b!"'" = b!"'" ++ (b!"\\x" ++ hexEncode b) ++ b!"'" := rfl
    rw [if_pos rfl, e]
    unfold readLiteral
    rw [if_neg (ne_null_of_eval he)]
    simp only [if_pos, he, Option.bind_some]
    simp [hh]
  · rw [if_neg hp]
    by_cases hs : d = .sqlserver
    · subst hs
      rw [if_pos rfl]
      unfold readLiteral
      rw [if_neg (by intro e; cases e)]
      simp [hh]
    · rw [if_neg hs]
      unfold readLiteral
      rw [if_neg (by intro e; cases e)]
      simp only [if_neg hp, if_neg hs]
      simp [hh]

theorem tdiv_mul {o : Int} (h : 60 ∣ o) : o.tdiv 60 * 60 = o := Int.tdiv_mul_cancel h

theorem stamp_eval (d : Dialect) (t : GoTime) (hd : d ≠ .oracle) :
    evalString d (stampText d t) = some (if d = .postgres ∨ d = .sqlserver then
      timeText t.wall ++ (fracText t.wall.nano ++ zoneText t.offset) else timeText t.utc) := by
  unfold stampText
  by_cases hp : d = .postgres ∨ d = .sqlserver
  · rw [if_pos hp, if_pos hp]
    have hc : ∀ c ∈ timeText t.wall ++ (fracText t.wall.nano ++ zoneText t.offset),
        isDigit c = true ∨ c ∈ ['-', ' ', ':', '.', '+'] := by
      intro c hc
      rw [List.mem_append, List.mem_append] at hc
      rcases hc with hc | hc | hc
      · rcases timeText_chars _ c hc with h | h
        · exact .inl h
        · right; clear hc; revert c; decide
      · rcases fracText_chars _ c hc with h | h
        · exact .inl h
        · right; subst h; decide
      · rcases zoneText_chars _ c hc with h | h
        · exact .inl h
        · right; clear hc; revert c; decide
    rw [show b!"'" ++ timeText t.wall ++ fracText t.wall.nano ++ zoneText t.offset ++ b!"'" =
      b!"'" ++ (timeText t.wall ++ (fracText t.wall.nano ++ zoneText t.offset)) ++ b!"'" by simp]
    refine evalString_quoted d _ hd ?_ ?_ ?_
    · intro h; exact absurd (hc _ h) (by decide)
    · intro c hm
      have h := hc c hm
      clear hc hm
      rcases h with h | h
      · simp [isNewline]; constructor <;> (rintro rfl; revert h; decide)
      · revert c; decide
    · intro _ h; exact absurd (hc _ h) (by decide)
  · rw [if_neg hp, if_neg hp]
    have hc := timeText_chars t.utc
    refine evalString_quoted d _ hd ?_ ?_ ?_
    · intro h; exact absurd (hc _ h) (by decide)
    · intro c hm
      have h := hc c hm
      clear hc hm
      rcases h with h | h
      · simp [isNewline]; constructor <;> (rintro rfl; revert h; decide)
      · revert c; decide
    · intro _ h; exact absurd (hc _ h) (by decide)

/-- C76 (times).  What the literal of a time loses: in Postgres and SQL Server what is less than 100
nanoseconds, and seconds of the offset from UTC; in the other databases all fractions of a second. -/
theorem time_literal (parse : Str → Option F) (d : Dialect) (t : GoTime) (hd : d ≠ .oracle) (h : Sound t) :
    readLiteral parse d .time (stampText d t) = some (.time (if d = .postgres ∨ d = .sqlserver then
      instant { t.wall with nano := t.wall.nano / 100 * 100 } (t.offset.tdiv 60 * 60)
      else instant { t.utc with nano := 0 } 0)) := by
  have he := stamp_eval d t hd
  unfold readLiteral
  rw [if_neg (ne_null_of_eval he)]
  simp only [he, Option.bind_some]
  by_cases hp : d = .postgres ∨ d = .sqlserver
  · rw [if_pos hp, if_pos hp, readStamp_zone _ _ h.wall h.nano h.offset]; rfl
  · rw [if_neg hp, if_neg hp, readStamp_plain _ h.utc]; rfl

example : Sound ⟨⟨2024, 3, 1, 1, 30, 0, 120000000⟩, 7200, ⟨2024, 2, 29, 23, 30, 0, 120000000⟩⟩ ∧
    stampText .postgres ⟨⟨2024, 3, 1, 1, 30, 0, 120000000⟩, 7200, ⟨2024, 2, 29, 23, 30, 0, 120000000⟩⟩ =
      b!"'2024-03-01 01:30:00.12+02:00'" ∧
    stampText .mysql ⟨⟨2024, 3, 1, 1, 30, 0, 120000000⟩, 7200, ⟨2024, 2, 29, 23, 30, 0, 120000000⟩⟩ =
      b!"'2024-02-29 23:30:00'" ∧
    readStamp b!"2024-03-01 01:30:00.12+02:00" = readStamp b!"2024-02-29 23:30:00.120" := by
  decide +kernel

theorem time_literal_exact (parse : Str → Option F) (d : Dialect) (t : GoTime) (hd : d ≠ .oracle)
    (h : TimeOk d t) : readLiteral parse d .time (stampText d t) = some (.time (at_ t)) := by
  rw [time_literal parse d t hd h.1]
  have h2 := h.2
  by_cases hp : d = .postgres ∨ d = .sqlserver
  · rw [if_pos hp] at h2 ⊢
    rw [tdiv_mul h2.2, Nat.div_mul_cancel h2.1]
    congr 2
    exact h.1.same
  · rw [if_neg hp] at h2 ⊢
    unfold at_
    rw [show { t.utc with nano := 0 } = t.utc by rw [← h2]]

/-- C76 (value).  Where `Sprint` gives a literal, the literal is read as the value that `database/sql`
passes for the argument, in each of the four databases and for all arguments of which every part is
fine in the sense of `ArgOk`. -/
theorem sprint_literal_partial (fl : Floats F) (d : Dialect) (hd : d ≠ .oracle) (v : Arg F) :
    ∀ (x : Val F) (text : Str) (k : Kind), ArgOk fl d v → valueOf v = some x → sprint fl d v = .ok text →
      IsKind x k → readLiteral fl.parse d k text = some x := by
  fun_induction sprint fl d v with
  | case1 =>
    intro x text k _ hx ht _
    cases hx; cases ht
    exact null_literal _ _ _
  | case2 b =>
    intro x text k _ hx ht hk
    cases hx; cases ht
    cases k <;> first | exact bool_literal _ _ _ | cases hk
  | case3 b =>
    intro x text k hok hx ht hk
    cases b with
    | none => cases hok
    | some b =>
      cases hx; cases ht
      cases k <;> first | exact bytes_literal _ _ _ hd hok | cases hk
  | case4 s =>
    intro x text k hok hx ht hk
    cases hx; cases ht
    cases k <;> first | exact text_literal _ _ _ hd hok | cases hk
  | case5 t =>
    intro x text k hok hx ht hk
    cases hx; cases ht
    cases k <;> first | exact time_literal_exact _ _ _ hd hok | cases hk
  | case6 i =>
    intro x text k hok hx ht hk
    cases hx; cases ht
    cases k <;> first | exact int_literal _ _ _ hok | cases hk
  | case7 x =>
    intro x text k hok hx ht hk
    cases hx; cases ht
    cases k <;> first | exact float_literal _ _ _ hok | cases hk
  | case8 v ih => exact fun x text k hok hx ht hk => ih x text k hok hx ht hk
  | case9 b =>
    intro x text k hok hx ht hk
    cases b with
    | none => cases hx; cases ht; exact null_literal _ _ _
    | some b =>
      cases hx; cases ht
      cases k <;> first | exact bool_literal _ _ _ | cases hk
  | case10 b =>
    intro x text k hok hx ht hk
    cases b with
    | none => cases hx; cases ht; exact null_literal _ _ _
    | some b =>
      cases hx; cases ht
      cases k <;> first | exact float_literal _ _ _ hok | cases hk
  | case11 b =>
    intro x text k hok hx ht hk
    cases b with
    | none => cases hx; cases ht; exact null_literal _ _ _
    | some b =>
      cases hx; cases ht
      cases k <;> first | exact int_literal _ _ _ hok | cases hk
  | case12 b =>
    intro x text k hok hx ht hk
    cases b with
    | none => cases hx; cases ht; exact null_literal _ _ _
    | some b =>
      cases hx; cases ht
      cases k <;> first | exact text_literal _ _ _ hd hok | cases hk
  | case13 b =>
    intro x text k hok hx ht hk
    cases b with
    | none => cases hx; cases ht; exact null_literal _ _ _
    | some b =>
      cases hx; cases ht
      cases k <;> first | exact time_literal_exact _ _ _ hd hok | cases hk
  | case14 => intro x text k _ _ ht; cases ht
  | case15 p v hv ih =>
    intro x text k hok hx ht hk
    rw [valueOf, if_pos hv] at hx
    exact ih x text k hok hx ht hk
  | case16 => intro x text k _ _ ht; cases ht
  | case17 => intro x text k _ _ ht; cases ht
  | case18 =>
    intro x text k _ hx ht _
    cases hx; cases ht
    exact null_literal _ _ _
  | case19 v hv ih => exact fun x text k hok hx ht hk => ih x text k hok hx ht hk
  | case20 => intro x text k _ _ ht; cases ht
  | case21 => intro x text k _ _ ht; cases ht
  | case22 => intro x text k _ _ ht; cases ht

/-- Floating point numbers of the samples: halves, as their double. -/
def halves : Floats Int where
  fmtF n := if n % 2 = 0 then formatInt (n / 2) else formatInt (n / 2) ++ b!".5"
  fmtG n := if n % 2 = 0 then formatInt (n / 2) else formatInt (n / 2) ++ b!".5"
  parse s := if s = b!"1.5" then some 3 else none

example : ArgOk halves .mysql (.ptr (.nullStr (some b!"it's\r\nfine"))) ∧
    valueOf (.ptr (.nullStr (some b!"it's\r\nfine")) : Arg Int) = some (.text b!"it's\r\nfine") ∧
    sprint halves .mysql (.ptr (.nullStr (some b!"it's\r\nfine"))) =
      .ok b!"CONCAT('it''s', CHAR(13), CHAR(10), 'fine')" :=
  ⟨⟨fun _ => by decide, fun h => (by cases h)⟩, rfl, by decide +kernel⟩

example : ArgOk halves .sqlserver (.valuer false (some (.bytes (some b!"AZ")))) ∧
    sprint halves .sqlserver (.valuer false (some (.bytes (some b!"AZ")))) = .ok b!"0x415a" ∧
    readLiteral halves.parse .sqlserver .bytes b!"0x415a" = some (.bytes b!"AZ") :=
  ⟨show Bytes _ by decide, by decide +kernel, by decide +kernel⟩

example : ArgOk halves .postgres (.named (.float 3)) ∧ sprint halves .postgres (.named (.float 3)) = .ok b!"1.5" ∧
    readLiteral halves.parse .postgres .float b!"1.5" = some (.float 3) :=
  ⟨⟨by decide +kernel, by decide +kernel⟩, by decide +kernel, by decide +kernel⟩

/-- C76 (every value).  `Sprint` gives a literal for every value of the types that it knows, and for
pointers to them. -/
theorem sprint_total (fl : Floats F) (d : Dialect) (v : Arg F) (h : Direct v) :
    ∃ text, sprint fl d v = .ok text := by
  fun_induction sprint fl d v with
  | case8 v ih => exact ih h
  | case14 => cases h
  | case15 p v hv ih =>
    refine ih ?_
    cases v <;> first | trivial | cases hv
  | case16 p v hv => exact absurd h hv
  | case17 => cases h
  | case19 v hv ih => exact ih h.1
  | case20 v hv =>
    exfalso
    obtain ⟨h1, h2, h3, h4⟩ := h
    apply hv
    cases v <;> first | rfl | (exact absurd rfl (h2 _)) | (exact absurd rfl h3) | (exact absurd rfl h4) | cases h1
  | case21 => cases h
  | case22 => cases h
  | _ => exact ⟨_, rfl⟩

example : Direct (.ptr (.named (.nullInt (some (-5)))) : Arg Int) ∧
    sprint halves .sqlite (.ptr (.named (.nullInt (some (-5))))) = .ok b!"-5" :=
  ⟨⟨trivial, (by intro w h; cases h), (by intro h; cases h), (by intro h; cases h)⟩, by decide +kernel⟩

/-- C76 (one line).  No literal contains a line end, so that it cannot end a comment or a statement in
a file that is read by lines. -/
theorem sprint_one_line (fl : Floats F) (hf : ∀ x, ∀ c ∈ fl.fmtG x, isNewline c = false) (d : Dialect)
    (v : Arg F) (text : Str) (h : sprint fl d v = .ok text) : ∀ c ∈ text, isNewline c = false := by
  have hnull : ∀ c ∈ b!"NULL", isNewline c = false := by decide
  have hbool : ∀ b, ∀ c ∈ boolText d b, isNewline c = false := by
    intro b; cases b <;> cases d <;> decide
  have hdig : ∀ c, isDigit c = true → isNewline c = false := by
    intro c hc
    simp [isNewline]; constructor <;> (rintro rfl; revert hc; decide)
  have hstr : ∀ s, ∀ c ∈ sprintString d s, isNewline c = false := by
    intro s c hc
    have := sprintString_one_line d s
    simp only [isNewline, Bool.or_eq_false_iff, beq_eq_false_iff_ne]
    constructor <;> rintro rfl
    · exact this.1 hc
    · exact this.2 hc
  have hint : ∀ i, ∀ c ∈ formatInt i, isNewline c = false := by
    intro i c hc
    cases i with
    | ofNat n => exact hdig c (PqArray.toDigits_digits n c hc)
    | negSucc n =>
      rcases List.mem_cons.1 hc with rfl | hc
      · rfl
      · exact hdig c (PqArray.toDigits_digits _ c hc)
  have htime : ∀ t, ∀ c ∈ stampText d t, isNewline c = false := by
    intro t c hc
    have h1 := timeText_chars t.wall c
    have h2 := timeText_chars t.utc c
    have h3 := fracText_chars t.wall.nano c
    have h4 := zoneText_chars t.offset c
    have h5 := hdig c
    unfold stampText at hc
    have hl : ∀ c ∈ ['-', ' ', ':', '+', '.', '\''], isNewline c = false := by decide
    have h6 := hl c
    split at hc <;> simp only [List.mem_append] at hc <;> grind
  have hbytes : ∀ b, ∀ c ∈ bytesText d b, isNewline c = false := by
    intro b
    have hx : ∀ n, n < 16 → isNewline (hexDigit n) = false := by decide
    have hh : ∀ c ∈ hexEncode b, isNewline c = false := by
      intro c hc
      unfold hexEncode at hc
      rw [List.mem_flatMap] at hc
      obtain ⟨x, _, hc⟩ := hc
      have key : ∀ n, 16 ≤ n → isNewline (hexDigit n) = false := by
        intro n hn
        have e : (hexDigit n).toNat = 87 + n ∨ (hexDigit n).toNat = 0 := by
          unfold hexDigit
          rw [if_neg (by omega)]
          by_cases hv : (87 + n).isValidChar
          · left
            simp [Char.ofNat, hv, Char.ofNatAux, Char.toNat]
            rcases hv with h | h <;> omega
          · right
            have : Char.ofNat (87 + n) = Char.ofNat 0 := by
              unfold Char.ofNat
              rw [dif_neg hv]
              rfl
            rw [this]; rfl
        simp only [isNewline, Bool.or_eq_false_iff, beq_eq_false_iff_ne]
        constructor <;> (intro e2; rw [e2] at e; simp at e; omega)
      have key2 : ∀ n, isNewline (hexDigit n) = false := fun n =>
        if hn : n < 16 then hx n hn else key n (by omega)
      rcases List.mem_cons.1 hc with rfl | hc
      · exact key2 _
      · rcases List.mem_cons.1 hc with rfl | hc
        · exact key2 _
        · cases hc
    intro c hc
    have h1 := hh c
    have hl : ∀ c ∈ b!"'\\x0", isNewline c = false := by decide
    have h2 := hl c
    unfold bytesText at hc
    split at hc
    · simp only [List.mem_append] at hc; grind
    · split at hc <;> (simp only [List.mem_append] at hc; grind)
  fun_induction sprint fl d v with
  | case1 => cases h; exact hnull
  | case2 b => cases h; exact hbool b
  | case3 b => cases h; exact hbytes _
  | case4 s => cases h; exact hstr s
  | case5 t => cases h; exact htime t
  | case6 i => cases h; exact hint i
  | case7 x => cases h; exact hf x
  | case8 v ih => exact ih h
  | case9 b => cases h; cases b; exact hnull; exact hbool _
  | case10 b => cases h; cases b; exact hnull; exact hf _
  | case11 b => cases h; cases b; exact hnull; exact hint _
  | case12 b => cases h; cases b; exact hnull; exact hstr _
  | case13 b => cases h; cases b; exact hnull; exact htime _
  | case14 => cases h
  | case15 p v hv ih => exact ih h
  | case16 => cases h
  | case17 => cases h
  | case18 => cases h; exact hnull
  | case19 v hv ih => exact ih h
  | case20 => cases h
  | case21 => cases h
  | case22 => cases h

example : sprint halves .postgres (.str b!"a\nb") = .ok b!"'a' || CHR(10) || 'b'" := by decide +kernel

/-! ## What is lost or refused -/

/-- C76 fails in MySQL and SQLite for times with fractions of a second (`DATETIME(6)` keeps them). -/
theorem sprint_fraction_refuted : ¬ ∀ t : GoTime, Sound t → t.wall.nano % 1000 = 0 →
    readLiteral halves.parse .mysql .time (stampText .mysql t) = some (.time (at_ t)) := by
  intro h
  exact absurd (h ⟨⟨2024, 3, 1, 1, 30, 0, 120000000⟩, 0, ⟨2024, 3, 1, 1, 30, 0, 120000000⟩⟩
    (by decide +kernel) (by decide)) (by decide +kernel)

/-- C76 fails in Postgres for times in a location whose offset from UTC has seconds (Amsterdam before
1937: 19 minutes and 32 seconds): the literal is an instant 32 seconds later. -/
theorem sprint_offset_refuted : ¬ ∀ t : GoTime, Sound t → t.wall.nano = 0 →
    readLiteral halves.parse .postgres .time (stampText .postgres t) = some (.time (at_ t)) := by
  intro h
  exact absurd (h ⟨⟨1930, 1, 1, 0, 19, 32, 0⟩, 1172, ⟨1930, 1, 1, 0, 0, 0, 0⟩⟩
    (by decide +kernel) (by decide)) (by decide +kernel)

/-- C76 fails for the floating point numbers that are not numbers: what is printed is no literal, in
any dialect. -/
theorem sprint_nan_refuted (fl : Floats F) (d : Dialect) (x : F)
    (h : fl.fmtG x = b!"NaN" ∨ fl.fmtG x = b!"+Inf" ∨ fl.fmtG x = b!"-Inf") :
    sprint fl d (.float x) = .ok (fl.fmtG x) ∧ ∀ k, readLiteral fl.parse d k (fl.fmtG x) = none := by
  refine ⟨rfl, fun k => ?_⟩
  have key : ∀ e ∈ [b!"NaN", b!"+Inf", b!"-Inf"], readLiteral fl.parse d k e = none := by
    intro e he
    have h1 : evalString d e = none := by
      clear h; revert e; cases d <;> decide +kernel
    have h2 : readInt e = none := by clear h h1; revert e; decide +kernel
    have h3 : ¬ NumberText e := by clear h h1 h2; revert e; decide
    simp at he
    rcases he with rfl | rfl | rfl <;> cases k <;> cases d <;> simp [readLiteral, h1, h2, h3]
  exact key _ (by simp [h])

example : (⟨fun _ => b!"NaN", fun _ => b!"NaN", fun _ => none⟩ : Floats Unit).fmtG () = b!"NaN" := rfl

/-- C76 fails for a nil slice of bytes: it is passed as NULL, but printed as the empty byte string. -/
theorem sprint_nil_bytes_refuted (fl : Floats F) :
    valueOf (.bytes none : Arg F) = some .null ∧ sprint fl .sqlite (.bytes none) = .ok b!"x''" ∧
    readLiteral fl.parse .sqlite .bytes b!"x''" = some (.bytes []) := ⟨rfl, rfl, rfl⟩

/-- C76 fails in SQLite for large unsigned integers: there the literal is a floating point number. -/
theorem sprint_unsigned_refuted : ¬ ∀ i : Int, 0 ≤ i → i < 2 ^ 64 →
    readLiteral halves.parse .sqlite .int (formatInt i) = some (.int i) := by
  intro h
  exact absurd (h (2 ^ 64 - 1) (by decide) (by decide)) (by decide +kernel)

/-- `Sprint` crashes for a nil pointer to a `driver.Valuer` such as `sql.NullString`, which
`database/sql` passes as NULL; also inside of a `sql.NamedArg`. -/
theorem sprint_nil_valuer_refuted (fl : Floats F) (d : Dialect) :
    valueOf (.nilValuer : Arg F) = some .null ∧ sprint fl d .nilValuer = .panic ∧
    sprint fl d (.named .nilValuer) = .panic := ⟨rfl, rfl, rfl⟩

/-- A crash has no other reason. -/
theorem sprint_panic (fl : Floats F) (d : Dialect) (v : Arg F) (h : sprint fl d v = .panic) :
    ∃ path : List Bool, v = path.foldr (fun b w => if b then .named w else .ptr w) .nilValuer := by
  fun_induction sprint fl d v with
  | case8 v ih =>
    obtain ⟨p, e⟩ := ih h
    exact ⟨true :: p, by rw [e]; rfl⟩
  | case15 p v hv ih =>
    exfalso
    cases v <;> first | (simp [Arg.isDriverValue] at hv; done) | (simp [sprint] at h; done)
  | case17 => exact ⟨[], rfl⟩
  | case19 v hv ih =>
    obtain ⟨p, e⟩ := ih h
    exact ⟨false :: p, by rw [e]; rfl⟩
  | _ => cases h

example : sprint halves .sqlite (.ptr .nilValuer) = .panic := rfl

/-- `Sprint` refuses pointers to pointers and values of types that are defined as a basic type, which
`database/sql` passes on. -/
theorem sprint_refuses_refuted (fl : Floats F) (d : Dialect) (i : Int) :
    valueOf (.ptr (.ptr (.int i)) : Arg F) = some (.int i) ∧ sprint fl d (.ptr (.ptr (.int i))) = .error ∧
    valueOf (.defined (.int i) : Arg F) = some (.int i) ∧ sprint fl d (.defined (.int i)) = .error :=
  ⟨rfl, rfl, rfl, rfl⟩

/-- A negative number after a minus sign starts a comment: `5-?` with the argument -1. -/
theorem sprintf_minus_refuted :
    Sprintf.sprintf .sqlite (fun _ => false) b!"SELECT 5-?" [⟨none, some (formatInt (-1))⟩] =
      .ok (b!"SELECT 5" ++ b!"--" ++ b!"1") := by decide +kernel

/-! ## C77: `Timestamp` -/

/-- C77 (round trip).  What `Value` gives for a `Timestamp` is scanned as the same `Timestamp`: in
SQLite for whole seconds between the years -29719 and 33658, in the other databases always. -/
theorem timestamp_roundtrip_partial (parse : Str → Str → Option Instant) (d : Dialect) (o : Option Instant)
    (h : d = .sqlite → ∀ t, o = some t → t.nano = 0 ∧ t.sec.natAbs ≤ 10 ^ 12) :
    scanTimestamp parse (timestampValue d o) = some o := by
  cases o with
  | none => rfl
  | some t =>
    unfold timestampValue
    by_cases hd : d = .sqlite
    · obtain ⟨h1, h2⟩ := h hd t rfl
      simp only [if_pos hd, scanTimestamp]
      rw [if_neg (by omega)]
      obtain ⟨s, n⟩ := t
      simp at h1
      rw [h1]
    · simp only [if_neg hd, scanTimestamp]

example : timestampValue .sqlite (some ⟨1709250600, 0⟩) = .int 1709250600 ∧
    scanTimestamp (fun _ _ => none) (.int 1709250600) = some (some ⟨1709250600, 0⟩) := by decide

/-- C77 fails in SQLite for fractions of a second. -/
theorem timestamp_fraction_refuted : ¬ ∀ (parse : Str → Str → Option Instant) (o : Option Instant),
    scanTimestamp parse (timestampValue .sqlite o) = some o := by
  intro h
  exact absurd (h (fun _ _ => none) (some ⟨1709250600, 500000000⟩)) (by decide)

/-- C77 fails in SQLite for the far future: its seconds are taken for milliseconds. -/
theorem timestamp_future_refuted : ¬ ∀ (parse : Str → Str → Option Instant) (t : Instant), t.nano = 0 →
    scanTimestamp parse (timestampValue .sqlite (some t)) = some (some t) := by
  intro h
  exact absurd (h (fun _ _ => none) ⟨1000000000001, 0⟩ rfl) (by decide)

theorem mul64_small {a b : Int} (h : -2 ^ 63 ≤ a * b ∧ a * b < 2 ^ 63) : mul64 a b = a * b := by
  unfold mul64
  rw [Int.emod_eq_of_lt (by omega) (by omega)]
  omega

/-- C77 (milliseconds).  An integer of 13 digits is the number of milliseconds, up to the year 2262. -/
theorem timestamp_millis_partial (parse : Str → Str → Option Instant) (v : Int)
    (h : 10 ^ 12 < v.natAbs) (hb : v.natAbs ≤ 9223372036854) :
    scanTimestamp parse (.int v) = some (some ⟨v / 1000, (v % 1000).toNat * 10 ^ 6⟩) := by
  simp only [scanTimestamp]
  rw [if_pos (by omega), mul64_small (by omega)]
  unfold ofNano
  rw [Int.fdiv_eq_ediv_of_nonneg _ (by decide), Int.fmod_eq_emod_of_nonneg _ (by decide)]
  congr 3
  · omega
  · omega

example : scanTimestamp (fun _ _ => none) (.int 1709250600123) = some (some ⟨1709250600, 123000000⟩) := by decide

/-- After the year 2262 the number of nanoseconds does not fit into 64 bits. -/
theorem timestamp_millis_refuted : ¬ ∀ (parse : Str → Str → Option Instant) (v : Int), 10 ^ 12 < v →
    v < 10 ^ 13 → scanTimestamp parse (.int v) = some (some ⟨v / 1000, (v % 1000).toNat * 10 ^ 6⟩) := by
  intro h
  exact absurd (h (fun _ _ => none) 9223372036855 (by decide) (by decide)) (by decide)

/-- C77 (absent).  A NULL and the empty text are accepted, whatever `time.ParseInLocation` does, and are
a `Timestamp` that is not valid; a text that is not empty never is one. -/
theorem timestamp_absent (parse : Str → Str → Option Instant) (s : Str) :
    scanTimestamp parse .null = some none ∧
    (scanTimestamp parse (.text s) = some none ↔ s = []) := by
  refine ⟨rfl, ?_⟩
  by_cases h : s = []
  · simp [scanTimestamp, h]
  · rw [scanTimestamp, if_neg h]
    cases timestampFormats.findSome? fun f => parse f (trimSuffix s b!"Z") <;> simp [h]

example : scanTimestamp (fun _ _ => some ⟨0, 0⟩) (.text []) = some none ∧
    scanTimestamp (fun _ _ => none) (.text b!"soon") = none := by decide

/-- C77 (text).  A text that a format accepts, with or without `Z` at its
end, is the time that the first such format gives. -/
theorem timestamp_text (parse : Str → Str → Option Instant) (s : Str) (hs : s ≠ []) (t : Instant) :
    scanTimestamp parse (.text s) = some (some t) ↔
      ∃ a f b, timestampFormats = a ++ f :: b ∧ parse f (trimSuffix s b!"Z") = some t ∧
        ∀ g ∈ a, parse g (trimSuffix s b!"Z") = none := by
  simp only [scanTimestamp, if_neg hs, Option.map_eq_some_iff, Option.some.injEq, exists_eq_right]
  exact List.findSome?_eq_some_iff

example : scanTimestamp (fun f s => if f = b!"2006-01-02" ∧ s = b!"2024-03-01" then some ⟨1709251200, 0⟩ else none)
    (.text b!"2024-03-01Z") = some (some ⟨1709251200, 0⟩) := by decide +kernel

end LiteralSpec
