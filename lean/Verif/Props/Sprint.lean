import Verif.Lemmas.Quote

/-!
# C22: string values are printed as literals that read back as the value
-/

namespace Sqddl
open SqlSpec

theorem readQuoted_doubleQuotes (s rest : Str) (h : rest.head? ≠ some '\'') :
    readQuoted '\'' (doubleQuotes s ++ '\'' :: rest) = some (s, rest) := by
  induction s with
  | nil => exact readQuoted_end h
  | cons c r ih =>
    rw [doubleQuotes]
    split
    · rename_i hc; subst hc
      simp [readQuoted_pair, ih]
    · rename_i hc
      simp [readQuoted_cons_ne hc, ih]

theorem readMySQL_doubleQuotes (s rest : Str) (h : rest.head? ≠ some '\'') (hb : '\\' ∉ s) :
    readMySQLString (doubleQuotes s ++ '\'' :: rest) = some (s, rest) := by
  induction s with
  | nil =>
    cases rest with
    | nil => simp [doubleQuotes, readMySQLString]
    | cons d r => simp at h; simp [doubleQuotes, readMySQLString, h]
  | cons c r ih =>
    simp only [List.mem_cons, not_or] at hb
    have ih := ih hb.2
    rw [doubleQuotes]
    split
    · rename_i hc; subst hc
      simp [readMySQLString, ih]
    · rename_i hc
      have hne : ∃ x y, doubleQuotes r ++ '\'' :: rest = x :: y := by
        cases hh : doubleQuotes r ++ '\'' :: rest with
        | nil => simp at hh
        | cons x y => exact ⟨x, y, rfl⟩
      obtain ⟨x, y, hxy⟩ := hne
      rw [hxy] at ih
      rw [List.cons_append, hxy, readMySQLString, if_neg hc, if_neg (Ne.symm hb.1), ih]
      rfl

theorem readTerm_lit (d : Dialect) (s rest : Str) (h : rest.head? ≠ some '\'')
    (hb : d = .mysql → '\\' ∉ s) : readTerm d (sqlLit s ++ rest) = some (s, rest) := by
  have : sqlLit s ++ rest = '\'' :: (doubleQuotes s ++ '\'' :: rest) := by simp [sqlLit]
  rw [this, readTerm]
  by_cases hd : d = .mysql
  · subst hd; exact readMySQL_doubleQuotes s rest h (hb rfl)
  · have := readQuoted_doubleQuotes s rest h
    cases d <;> simp_all [readString]

theorem readTerm_newline (d : Dialect) (c : Char) (rest : Str) (hc : isNewline c = true)
    (hd : d ≠ .oracle) : readTerm d (newlineFn d c ++ rest) = some ([c], rest) := by
  simp only [isNewline, Bool.or_eq_true, beq_iff_eq] at hc
  rcases hc with rfl | rfl <;> cases d <;> first | exact absurd rfl hd | rfl

/-- operands of a text -/
def pieces (s : Str) : List Str :=
  match _h : s.dropWhile (fun c => !isNewline c) with
  | [] => if s = [] then [] else [s]
  | c :: rest =>
    let pre := s.takeWhile (fun c => !isNewline c)
    (if pre = [] then [] else [pre]) ++ [c] :: pieces rest
termination_by s.length
decreasing_by
  have h1 := (List.dropWhile_suffix (l := s) (fun c => !isNewline c)).length_le
  rw [_h] at h1
  simp at h1; omega

theorem pieces_flatten (s : Str) : (pieces s).flatten = s := by
  fun_induction pieces s with
  | case1 => rfl
  | case2 => simp
  | case3 s c rest h pre ih =>
    have : s = pre ++ c :: rest := by rw [← h]; exact List.takeWhile_append_dropWhile.symm
    simp only [List.flatten_append, List.flatten_cons, ih]
    split
    · rename_i hp; rw [this, hp]; rfl
    · rw [this]; simp

theorem operandCount_plain (s : Str) (hs : s ≠ []) (h : ∀ c ∈ s, isNewline c = false) :
    operandCount s = 1 := by
  fun_induction operandCount s with
  | case1 => simp at hs
  | case2 => rfl
  | case3 c d r hc ih => exact ih (by simp) (fun x hx => h x (by simp [hx]))
  | case4 c d r hc ih =>
    have h1 := h c (by simp)
    have h2 := h d (by simp)
    simp [isNewline] at h1 h2
    exact absurd ⟨h1.1, h1.2, h2.1, h2.2⟩ hc

theorem operandCount_newline (c : Char) (r : Str) (h : isNewline c = true) :
    operandCount (c :: r) = 1 + operandCount r := by
  cases r with
  | nil => rfl
  | cons d r =>
    rw [operandCount, if_neg]
    simp [isNewline] at h; grind

theorem operandCount_pre (s : Str) (c : Char) (r : Str) (hs : s ≠ [])
    (h : ∀ c ∈ s, isNewline c = false) (hc : isNewline c = true) :
    operandCount (s ++ c :: r) = 1 + operandCount (c :: r) := by
  fun_induction operandCount s with
  | case1 => simp at hs
  | case2 x =>
    simp only [List.cons_append, List.nil_append]
    rw [operandCount, if_neg]
    simp [isNewline] at hc; grind
  | case3 x d t hx ih =>
    have := ih (by simp) (fun y hy => h y (by simp [hy]))
    simp only [List.cons_append] at this ⊢
    rw [operandCount, if_pos hx, this]
  | case4 x d t hx ih =>
    have h1 := h x (by simp)
    have h2 := h d (by simp)
    simp [isNewline] at h1 h2
    exact absurd ⟨h1.1, h1.2, h2.1, h2.2⟩ hx

theorem takeWhile_plain (s : Str) : ∀ c ∈ s.takeWhile (fun c => !isNewline c), isNewline c = false := by
  intro c hc
  have := List.all_takeWhile (l := s) (p := fun c => !isNewline c)
  simp only [List.all_eq_true] at this
  simpa using this c hc

theorem dropWhile_head {s rest : Str} {c : Char}
    (h : s.dropWhile (fun c => !isNewline c) = c :: rest) : isNewline c = true := by
  have := List.head_dropWhile_not (l := s) (fun c => !isNewline c) (by rw [h]; simp)
  simp only [h, List.head_cons] at this
  simpa using this

theorem pieces_length (s : Str) : (pieces s).length = operandCount s := by
  fun_induction pieces s with
  | case1 => rfl
  | case2 s h hs =>
    rw [operandCount_plain s hs]
    · rfl
    · intro c hc
      have : s.takeWhile (fun c => !isNewline c) = s := by
        have := List.takeWhile_append_dropWhile (p := fun c => !isNewline c) (l := s)
        rw [h, List.append_nil] at this; exact this
      rw [← this] at hc
      exact takeWhile_plain s c hc
  | case3 s c rest h pre ih =>
    have e : s = pre ++ c :: rest := by rw [← h]; exact List.takeWhile_append_dropWhile.symm
    have hc := dropWhile_head h
    rw [e]
    by_cases hp : pre = []
    · rw [hp, List.nil_append, operandCount_newline c rest hc]
      simp [ih]; omega
    · rw [operandCount_pre pre c rest hp (takeWhile_plain s) hc, operandCount_newline c rest hc]
      simp [hp, ih]; omega

theorem dropWhile_all {p : Char → Bool} {s : Str} (h : s.all p = true) : s.dropWhile p = [] := by
  induction s with
  | nil => rfl
  | cons c r ih =>
    simp at h
    simp [h.1]
    simpa using ih (by simpa using h.2)

theorem sqlLit_head (s t : Str) : ∃ r, sqlLit s ++ t = '\'' :: r := ⟨_, rfl⟩

theorem readTerms_sprintPieces (d : Dialect) (stop : Str) (hstop : stop.head? ≠ some '\'')
    (hd : d ≠ .oracle) (s : Str) (hs : s ≠ []) (hb : d = .mysql → '\\' ∉ s) (fuel : Nat)
    (hf : (pieces s).length ≤ fuel) :
    readTerms d (pieceSep d) stop fuel (sprintPieces d s ++ stop) = some (pieces s) := by
  have hsepne : ∀ t : Str, pieceSep d ++ t ++ stop ≠ stop := by
    intro t h
    have := congrArg List.length h
    have h2 : 0 < (pieceSep d).length := by cases d <;> decide
    simp at this; omega
  have hseph : ∀ t : Str, (pieceSep d ++ t).head? ≠ some '\'' := by
    intro t; cases d <;> simp [pieceSep, usesConcat]
  have hpre : ∀ t : Str, (pieceSep d).isPrefixOf (pieceSep d ++ t) = true := by
    intro t; rw [List.isPrefixOf_iff_prefix]; exact List.prefix_append _ _
  fun_induction sprintPieces d s generalizing fuel with
  | case1 => exact absurd rfl hs
  | case2 s h hs' =>
    have e : pieces s = [s] := by
      rw [pieces]; split
      · simp [hs]
      · rename_i h2; rw [h] at h2; cases h2
    rw [e] at hf ⊢
    cases fuel with
    | zero => simp at hf
    | succ n =>
      rw [readTerms, readTerm_lit d s stop hstop hb]
      simp
  | case3 s c rest h pre ih =>
    have hc := dropWhile_head h
    have es : s = pre ++ c :: rest := by rw [← h]; exact List.takeWhile_append_dropWhile.symm
    have hbp : d = .mysql → '\\' ∉ pre := by
      intro hh hm; exact hb hh (by rw [es]; simp [hm])
    have hbr : d = .mysql → '\\' ∉ rest := by
      intro hh hm; exact hb hh (by rw [es]; simp [hm])
    have ep : pieces s = (if pre = [] then [] else [pre]) ++ [c] :: pieces rest := by
      rw [pieces]; split
      · rename_i h2; rw [h] at h2; cases h2
      · rename_i c' rest' h2
        rw [h] at h2; cases h2; rfl
    -- the part from the newline on
    have tail : ∀ n, (pieces rest).length ≤ n →
        readTerms d (pieceSep d) stop (n + 1)
          (newlineFn d c ++ (if rest = [] then [] else pieceSep d) ++ sprintPieces d rest ++ stop)
          = some ([c] :: pieces rest) := by
      intro n hn
      rw [readTerms, List.append_assoc, List.append_assoc, readTerm_newline d c _ hc hd]
      by_cases hr : rest = []
      · have e1 : sprintPieces d rest = [] := by rw [hr, sprintPieces]; simp
        have e2 : pieces rest = [] := by rw [hr, pieces]; simp
        rw [e1, e2]
        simp [hr]
      · simp only [hr, if_false]
        rw [if_neg (by rw [← List.append_assoc]; exact hsepne _), if_pos (hpre _), List.drop_left]
        rw [ih hr hbr n hn]
        rfl
    rw [ep] at hf ⊢
    by_cases hp : pre = []
    · simp only [hp, if_true, List.nil_append, List.length_cons] at hf ⊢
      cases fuel with
      | zero => omega
      | succ n => exact tail n (by omega)
    · simp only [hp, if_false, List.cons_append, List.nil_append, List.length_cons] at hf ⊢
      cases fuel with
      | zero => omega
      | succ n =>
        cases n with
        | zero => omega
        | succ n =>
          rw [readTerms]
          have := readTerm_lit d pre (pieceSep d ++ (newlineFn d c ++
            (if rest = [] then [] else pieceSep d) ++ sprintPieces d rest ++ stop)) (hseph _) hbp
          simp only [List.append_assoc] at this tail ⊢
          rw [this]
          simp only []
          rw [if_neg, if_pos (hpre _), List.drop_left, tail n (by omega)]
          · rfl
          · have := hsepne (newlineFn d c ++ ((if rest = [] then [] else pieceSep d) ++ sprintPieces d rest))
            simpa [List.append_assoc] using this

theorem operandCount_le (s : Str) : operandCount s ≤ s.length := by
  fun_induction operandCount s <;> simp_all <;> omega

theorem sprintPieces_length (d : Dialect) (s : Str) : s.length ≤ (sprintPieces d s).length := by
  have dq : ∀ t : Str, t.length ≤ (doubleQuotes t).length := by
    intro t
    induction t with
    | nil => simp
    | cons c r ih => rw [doubleQuotes]; split <;> simp <;> omega
  fun_induction sprintPieces d s with
  | case1 => simp
  | case2 s => have := dq s; simp [sqlLit]; omega
  | case3 s c rest h pre ih =>
    have es : s.length = pre.length + (rest.length + 1) := by
      have : s = pre ++ c :: rest := by rw [← h]; exact List.takeWhile_append_dropWhile.symm
      rw [this]; simp
    have hn : 1 ≤ (newlineFn d c).length := by simp [newlineFn]; omega
    have := dq pre
    rw [es]
    simp only [List.length_append]
    by_cases hp : pre = []
    · simp [hp]; omega
    · simp [hp, sqlLit]; omega

/-- C22 (value).  Evaluating the printed text gives the string back, on SQLite, Postgres, MySQL
(strings without backslash) and SQL Server (when the number of `CONCAT` operands is admissible). -/
theorem sprintString_evaluates_partial (d : Dialect) (s : Str) (hd : d ≠ .oracle)
    (hb : d = .mysql → '\\' ∉ s)
    (hss : d = .sqlserver → (∃ c ∈ s, c = '\r' ∨ c = '\n') →
      2 ≤ operandCount s ∧ operandCount s ≤ 254) :
    evalString d (sprintString d s) = some s := by
  unfold sprintString
  by_cases hn : s.any isNewline = true
  · have hs : s ≠ [] := by rintro rfl; simp at hn
    have hnl : ∃ c ∈ s, c = '\r' ∨ c = '\n' := by simpa [isNewline] using hn
    have hle := operandCount_le s
    have hle2 := sprintPieces_length d s
    simp only [hn, if_true]
    by_cases hu : usesConcat d = true
    · have hsep : pieceSep d = b!", " := by simp [pieceSep, hu]
      have := readTerms_sprintPieces d b!")" (by simp) hd s hs hb
        ((b!"CONCAT(" ++ sprintPieces d s ++ b!")").length + 1)
        (by rw [pieces_length]; simp; omega)
      rw [hsep] at this
      have hdrop : (b!"CONCAT(" ++ sprintPieces d s ++ b!")").drop 7 = sprintPieces d s ++ b!")" := rfl
      have hpf : b!"CONCAT(".isPrefixOf (b!"CONCAT(" ++ sprintPieces d s ++ b!")") = true := rfl
      cases d <;> simp only [usesConcat, Bool.false_eq_true] at hu
      · simp only [usesConcat, if_true, evalString, hpf, hdrop, this, pieces_flatten]
        simp
      · simp only [usesConcat, if_true, evalString, hpf, hdrop, this, pieces_flatten, pieces_length]
        have := hss rfl hnl
        rw [if_neg]
        simp; omega
    · have hsep : pieceSep d = b!" || " := by simp [pieceSep, hu]
      have := readTerms_sprintPieces d [] (by simp) hd s hs hb
        ((sprintPieces d s).length + 1)
        (by rw [pieces_length]; omega)
      rw [hsep, List.append_nil] at this
      cases d <;> simp only [usesConcat, not_true_eq_false] at hu <;>
        simp only [usesConcat, Bool.false_eq_true, if_false, evalString, this, Option.map_some,
          pieces_flatten]
  · simp only [hn, Bool.false_eq_true, if_false]
    have ht := readTerm_lit d s [] (by simp) hb
    rw [List.append_nil] at ht
    have hne : b!"CONCAT(".isPrefixOf (sqlLit s) = false := rfl
    cases d <;> simp [evalString, readTerms, ht, hne]

example : sprintString .postgres b!"a'b\r\nc" = b!"'a''b' || CHR(13) || CHR(10) || 'c'" ∧
    evalString .postgres b!"'a''b' || CHR(13) || CHR(10) || 'c'" = some b!"a'b\r\nc" ∧
    operandCount b!"a'b\r\nc" = 4 ∧
    evalString .sqlserver (sprintString .sqlserver b!"a'b\r\nc") = some b!"a'b\r\nc" := by
  decide +kernel

theorem sprintPieces_no_newline (d : Dialect) (s : Str) :
    ∀ c ∈ sprintPieces d s, isNewline c = false := by
  have dq : ∀ t : Str, (∀ c ∈ t, isNewline c = false) → ∀ c ∈ sqlLit t, isNewline c = false := by
    intro t ht
    have : ∀ c ∈ doubleQuotes t, isNewline c = false := by
      induction t with
      | nil => simp [doubleQuotes]
      | cons x r ih =>
        have hx := ht x (by simp)
        have ih := ih fun c hc => ht c (by simp [hc])
        rw [doubleQuotes]; split <;> (intro c hc; simp at hc; rcases hc with rfl | hc <;> grind [isNewline])
    intro c hc
    simp [sqlLit] at hc
    rcases hc with rfl | hc | rfl
    · rfl
    · exact this c hc
    · rfl
  have hsep : ∀ c ∈ pieceSep d, isNewline c = false := by cases d <;> decide
  have hfn : ∀ x, ∀ c ∈ newlineFn d x, isNewline c = false := by
    intro x; unfold newlineFn
    cases d <;> (by_cases hx : x = '\r' <;> simp only [hx, if_true, if_false] <;> decide)
  fun_induction sprintPieces d s with
  | case1 => simp
  | case2 s h hs =>
    apply dq
    intro c hc
    have e : s.takeWhile (fun c => !isNewline c) = s := by
      have := List.takeWhile_append_dropWhile (p := fun c => !isNewline c) (l := s)
      rw [h, List.append_nil] at this; exact this
    rw [← e] at hc
    exact takeWhile_plain s c hc
  | case3 s c rest h pre ih =>
    intro x hx
    have hpre := dq pre (takeWhile_plain s)
    simp only [List.mem_append] at hx
    rcases hx with ((hx | hx) | hx) | hx
    · split at hx
      · simp at hx
      · rcases List.mem_append.1 hx with hx | hx
        · exact hpre x hx
        · exact hsep x hx
    · exact hfn c x hx
    · split at hx
      · simp at hx
      · exact hsep x hx
    · exact ih x hx

/-- C22 (one line).  The printed text contains no carriage return and no newline. -/
theorem sprintString_one_line (d : Dialect) (s : Str) :
    '\r' ∉ sprintString d s ∧ '\n' ∉ sprintString d s := by
  have key : ∀ c ∈ sprintString d s, isNewline c = false := by
    unfold sprintString
    split
    · have := sprintPieces_no_newline d s
      split
      · intro c hc
        simp only [List.mem_append] at hc
        rcases hc with (hc | hc) | hc
        · revert c; decide
        · exact this c hc
        · revert c; decide
      · exact this
    · rename_i h
      have hs : ∀ c ∈ s, isNewline c = false := by simpa using h
      intro c hc
      have : sprintPieces d s = if s = [] then [] else sqlLit s := by
        have hd : s.dropWhile (fun c => !isNewline c) = [] := by
          have e2 : s.all (fun c => !isNewline c) = true := by simpa using hs
          exact dropWhile_all e2
        rw [sprintPieces]; split
        · rfl
        · rename_i h2; rw [hd] at h2; cases h2
      by_cases he : s = []
      · subst he; revert c; decide
      · rw [if_neg he] at this
        exact sprintPieces_no_newline d s c (by rw [this]; exact hc)
  exact ⟨fun h => absurd (key _ h) (by decide), fun h => absurd (key _ h) (by decide)⟩

example : sprintString .sqlite b!"a\nb" = b!"'a' || CHAR(10) || 'b'" := by decide +kernel

/-- C22 fails on MySQL (default `sql_mode`): the string consisting of one backslash is printed as a
literal that is not closed. -/
theorem sprintString_mysql_refuted :
    ¬ ∀ s, evalString .mysql (sprintString .mysql s) = some s := by
  intro h
  exact absurd (h b!"\\") (by decide +kernel)

/-- C22 fails on SQL Server: the string consisting of one newline is printed as `CONCAT` with one
argument, which SQL Server rejects. -/
theorem sprintString_sqlserver_refuted :
    ¬ ∀ s, evalString .sqlserver (sprintString .sqlserver s) = some s := by
  intro h
  exact absurd (h b!"\n") (by decide +kernel)

end Sqddl
