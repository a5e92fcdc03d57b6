import Verif.Lemmas.Quote

/-!
# C18 - C21: quoting of identifiers and text
-/

namespace Sqddl
open SqlSpec

/-! ## C20: escaped text cannot leave its literal -/

/-- C20.  For every text `s` and quote `q`, reading `EscapeQuote(s, q)` followed by the closing
quote and any further text that does not itself start with a quote ends exactly at that closing
quote. -/
theorem escapeQuote_stays_inside (q : Char) (s rest : Str) (h : rest.head? ≠ some q) :
    ∃ v, readQuoted q (escapeQuote q s ++ q :: rest) = some (v, rest) :=
  ⟨_, readQuoted_escapeQuote q s rest h⟩

example : (b!"; DROP TABLE t; --").head? ≠ some '\'' ∧
    readQuoted '\'' (escapeQuote '\'' b!"x'; DROP TABLE s; --''" ++ '\'' :: b!"; DROP TABLE t; --")
      = some (b!"x'; DROP TABLE s; --''", b!"; DROP TABLE t; --") := by decide

/-! ## C21: escaped text reads back as the original -/

/-- C21 (exact characterisation).  The text reads back as itself iff it has no two adjacent
quotes followed by another byte. -/
theorem escapeQuote_reads_back_iff_partial (q : Char) (s rest : Str) (h : rest.head? ≠ some q) :
    readQuoted q (escapeQuote q s ++ q :: rest) = some (s, rest) ↔ ¬ HasInnerPair q s := by
  rw [readQuoted_escapeQuote q s rest h, ← collapse_eq_iff]
  simp

example : readQuoted '\'' (escapeQuote '\'' b!"it's 'quoted'" ++ b!"'") = some (b!"it's 'quoted'", []) := by
  decide

/-- C21 fails: the text `a''b` reads back as `a'b`. -/
theorem escapeQuote_reads_back_refuted :
    ¬ ∀ (q : Char) (s : Str), readQuoted q (escapeQuote q s ++ [q]) = some (s, []) := by
  intro h
  exact absurd (h '\'' b!"a''b") (by decide)

/-- Consequence of the failure of C21: two different texts are written the same way. -/
theorem escapeQuote_injective_refuted :
    ¬ ∀ (q : Char) (s t : Str), escapeQuote q s = escapeQuote q t → s = t := by
  intro h
  exact absurd (h '\'' b!"a''b" b!"a'b" (by decide)) (by decide)

/-! ## C19: unquoted identifiers are safe -/

/-- C19.  `QuoteIdentifier` returns the name as it is iff it is one of the five pseudo table names
or a non-empty word of lower case letters, digits and underscores that does not start with a digit
and is not a keyword of the dialect. -/
theorem quoteIdentifier_unquoted_iff (d : Dialect) (s : Str) :
    quoteIdentifier d s = s ↔
      s ∈ [b!"EXCLUDED", b!"INSERTED", b!"DELETED", b!"NEW", b!"OLD"] ∨
      (s ≠ [] ∧ (∀ c ∈ s, c = '_' ∨ ('0' ≤ c ∧ c ≤ '9') ∨ ('a' ≤ c ∧ c ≤ 'z')) ∧
        (∀ c ∈ s.head?, ¬ ('0' ≤ c ∧ c ≤ '9')) ∧ s ∉ keywords d) := by
  have h1 : quoteIdentifier d s = s ↔ needsQuoting d s = false := by
    unfold quoteIdentifier
    split
    · rename_i h
      simp only [h, Bool.true_eq_false, iff_false]
      intro e
      have e := congrArg List.length e
      have := escapeQuote_length (closeQuote d) s
      simp at e; omega
    · simp_all
  rw [h1]
  have hall : ∀ t : Str, (t.all plainChar = true) ↔
      (∀ c ∈ t, c = '_' ∨ ('0' ≤ c ∧ c ≤ '9') ∨ ('a' ≤ c ∧ c ≤ 'z')) := by
    intro t; simp [plainChar, or_assoc]
  cases s with
  | nil => simp [needsQuoting]
  | cons c r =>
    unfold needsQuoting
    by_cases hp : c :: r ∈ pseudoTables
    · have hp' : pseudoTables.contains (c :: r) = true := by simpa using hp
      simp only [hp', if_true]
      simp only [pseudoTables] at hp
      simp only [hp, true_or]
    · have hp' : pseudoTables.contains (c :: r) = false := by simpa using hp
      have hp2 := hp
      simp only [pseudoTables] at hp2
      simp only [hp', hp2, false_or]
      by_cases hd : Go.isDigit c = true
      · have : '0' ≤ c ∧ c ≤ '9' := by simpa [Go.isDigit] using hd
        simp only [hd, if_true]
        refine ⟨nofun, ?_⟩
        rintro ⟨_, _, h0, _⟩
        exact absurd this (h0 c rfl)
      · have hd' : ¬ ('0' ≤ c ∧ c ≤ '9') := by simpa [Go.isDigit] using hd
        by_cases ha : (c :: r).all plainChar = true
        · have ha2 := (hall _).1 ha
          simp only [hd, ha, toLower_plain ha, if_true]
          refine ⟨fun h => ⟨by simp, ha2, ?_, by simpa using h⟩, fun h => by simpa using h.2.2.2⟩
          intro x hx
          simp at hx; subst hx; exact hd'
        · simp only [hd, ha]
          refine ⟨nofun, ?_⟩
          rintro ⟨_, h, _⟩
          exact absurd ((hall _).2 h) ha

example : quoteIdentifier .postgres b!"user_id" = b!"user_id" ∧
    quoteIdentifier .postgres b!"user" = b!"\"user\"" ∧
    quoteIdentifier .mysql b!"1st" = b!"`1st`" ∧
    quoteIdentifier .sqlserver b!"a]b" = b!"[a]]b]" := by decide +kernel

/-! ## C18: quoted identifiers name exactly the object asked for -/

theorem readIdent_quoted (d : Dialect) (kw : List Str) (t : Str) :
    readIdent d kw (openQuote d :: t) = readQuoted (closeQuote d) t := by
  cases d <;> rfl

theorem readIdent_word (d : Dialect) (kw : List Str) (s rest : Str) (hs : s ≠ [])
    (hw : s.all wordChar) (h0 : ∀ c ∈ s.head?, Go.isDigit c = false)
    (hk : Go.toLower s ∉ kw) (hr : ∀ c ∈ rest.head?, wordChar c = false) :
    readIdent d kw (s ++ rest) = some (foldName d s, rest) := by
  cases s with
  | nil => exact absurd rfl hs
  | cons c s =>
    have hc : wordChar c = true := by simp at hw; exact hw.1
    have hq : c ≠ '`' ∧ c ≠ '[' ∧ c ≠ '"' := by
      refine ⟨?_, ?_, ?_⟩ <;> (rintro rfl; revert hc; decide)
    have tw := takeWhile_append_stop hw hr
    rw [List.cons_append] at tw ⊢
    have h0' := h0 c (by simp)
    rw [readIdent]
    · simp only [tw.1, tw.2, h0', Bool.false_eq_true, false_or]
      rw [if_neg]
      simpa using hk
    all_goals simp [hq.1, hq.2.1, hq.2.2]

theorem pseudo_facts : ∀ t ∈ pseudoTables, t ≠ [] ∧ t.all wordChar ∧
    (∀ c ∈ t.head?, Go.isDigit c = false) ∧ ∀ d, Go.toLower t ∉ keywords d := by
  have h1 : ∀ t ∈ pseudoTables, t ≠ [] ∧ t.all wordChar ∧
    (∀ c ∈ t.head?, Go.isDigit c = false) := by decide +kernel
  have h2 : ∀ t ∈ pseudoTables, Go.toLower t ∉ keywords .sqlite ∧ Go.toLower t ∉ keywords .postgres ∧
    Go.toLower t ∉ keywords .mysql ∧ Go.toLower t ∉ keywords .sqlserver := by decide +kernel
  intro t ht
  refine ⟨(h1 t ht).1, (h1 t ht).2.1, (h1 t ht).2.2, fun d => ?_⟩
  have := h2 t ht
  cases d
  · exact this.1
  · exact this.2.1
  · exact this.2.2.1
  · exact this.2.2.2
  · exact List.not_mem_nil
  · exact List.not_mem_nil

/-- C18 (no break-out).  Whatever the name, the text written by `QuoteIdentifier` followed by any
text that may follow a token is read as exactly one identifier token. -/
theorem quoteIdentifier_one_token (d : Dialect) (s rest : Str) (h : endsToken d rest) :
    ∃ name, readIdent d (keywords d) (quoteIdentifier d s ++ rest) = some (name, rest) := by
  have hr : ∀ c ∈ rest.head?, wordChar c = false := by
    cases rest with
    | nil => simp
    | cons c r => simp [endsToken] at h; simp [h.1]
  have hq : rest.head? ≠ some (closeQuote d) := by
    cases rest with
    | nil => simp
    | cons c r =>
      simp [endsToken] at h
      intro e; simp at e; subst e
      cases d <;> simp [closeQuote] at h
  by_cases hn : needsQuoting d s = true
  · simp only [quoteIdentifier, hn, if_true, List.cons_append, List.append_assoc, readIdent_quoted,
      List.nil_append]
    exact escapeQuote_stays_inside _ _ _ hq
  · refine ⟨foldName d s, ?_⟩
    have e : quoteIdentifier d s = s := by simp [quoteIdentifier, hn]
    rw [e]
    rcases (quoteIdentifier_unquoted_iff d s).1 e with hp | ⟨h1, h2, h3, h4⟩
    · obtain ⟨k1, k2, k3, k4⟩ := pseudo_facts s hp
      exact readIdent_word d _ s rest k1 k2 k3 (k4 d) hr
    · have ha : s.all plainChar = true := by
        simp only [List.all_eq_true]
        intro c hc
        have := h2 c hc
        simp [plainChar]; grind
      apply readIdent_word d _ s rest h1 _ _ _ hr
      · simp only [List.all_eq_true] at ha ⊢
        exact fun c hc => plainChar_wordChar (ha c hc)
      · intro c hc
        have := h3 c hc
        simp [Go.isDigit] at *; grind
      · rw [toLower_plain ha]; exact h4

example : endsToken .postgres b!" WHERE" ∧
    readIdent .postgres (keywords .postgres)
      (quoteIdentifier .postgres b!"a\"; DROP TABLE x; --" ++ b!" WHERE")
      = some (b!"a\"; DROP TABLE x; --", b!" WHERE") := by
  refine ⟨by simp [endsToken]; decide, by decide +kernel⟩

/-- C18 (exact name).  If the name has no two adjacent closing quotes followed by another byte, and
is not one of the five pseudo table names on Postgres, the token denotes exactly that name. -/
theorem quoteIdentifier_denotes_partial (d : Dialect) (s rest : Str) (h : endsToken d rest)
    (hp : ¬ HasInnerPair (match d with | .mysql => '`' | .sqlserver => ']' | _ => '"') s)
    (hk : d = .postgres → s ∉ [b!"EXCLUDED", b!"INSERTED", b!"DELETED", b!"NEW", b!"OLD"]) :
    readIdent d (keywords d) (quoteIdentifier d s ++ rest) = some (s, rest) := by
  have hr : ∀ c ∈ rest.head?, wordChar c = false := by
    cases rest with
    | nil => simp
    | cons c r => simp [endsToken] at h; simp [h.1]
  have hq : rest.head? ≠ some (closeQuote d) := by
    cases rest with
    | nil => simp
    | cons c r =>
      simp [endsToken] at h
      intro e; simp at e; subst e
      cases d <;> simp [closeQuote] at h
  by_cases hn : needsQuoting d s = true
  · simp only [quoteIdentifier, hn, if_true, List.cons_append, List.append_assoc, readIdent_quoted,
      List.nil_append]
    rw [escapeQuote_reads_back_iff_partial _ _ _ hq]
    cases d <;> exact hp
  · have e : quoteIdentifier d s = s := by simp [quoteIdentifier, hn]
    obtain ⟨n, hn⟩ := quoteIdentifier_one_token d s rest h
    rw [e] at hn ⊢
    have fold : s ∉ pseudoTables ∨ d ≠ .postgres → foldName d s = s := by
      intro hh
      by_cases hd : d = .postgres
      · subst hd
        rcases (quoteIdentifier_unquoted_iff _ s).1 e with hp | ⟨_, h2, _, _⟩
        · exact absurd hp (hk rfl)
        · apply toLower_plain
          simp only [List.all_eq_true]
          intro c hc
          have := h2 c hc
          simp [plainChar]; grind
      · cases d <;> simp_all [foldName]
    have : foldName d s = s := fold (by
      by_cases hd : d = .postgres
      · exact Or.inl (hk hd)
      · exact Or.inr hd)
    rcases (quoteIdentifier_unquoted_iff d s).1 e with hp | ⟨h1, h2, h3, h4⟩
    · obtain ⟨k1, k2, k3, k4⟩ := pseudo_facts s hp
      rw [readIdent_word d _ s rest k1 k2 k3 (k4 d) hr, this]
    · have ha : s.all plainChar = true := by
        simp only [List.all_eq_true]
        intro c hc
        have := h2 c hc
        simp [plainChar]; grind
      rw [readIdent_word d _ s rest h1 _ _ _ hr, this]
      · simp only [List.all_eq_true] at ha ⊢
        exact fun c hc => plainChar_wordChar (ha c hc)
      · intro c hc
        have := h3 c hc
        simp [Go.isDigit] at *; grind
      · rw [toLower_plain ha]; exact h4

example : readIdent .mysql (keywords .mysql) (quoteIdentifier .mysql b!"we`ird na`me" ++ b!".x")
    = some (b!"we`ird na`me", b!".x") := by decide +kernel

/-- C18 (different names stay different), under the same restriction. -/
theorem quoteIdentifier_injective_partial (d : Dialect) (s t : Str)
    (hs : ¬ HasInnerPair (match d with | .mysql => '`' | .sqlserver => ']' | _ => '"') s)
    (ht : ¬ HasInnerPair (match d with | .mysql => '`' | .sqlserver => ']' | _ => '"') t)
    (e : quoteIdentifier d s = quoteIdentifier d t) : s = t := by
  by_cases hns : needsQuoting d s = true <;> by_cases hnt : needsQuoting d t = true
  · simp only [quoteIdentifier, hns, hnt, if_true, List.cons.injEq, true_and] at e
    have h1 := (escapeQuote_reads_back_iff_partial (closeQuote d) s [] (by simp)).2
      (by cases d <;> exact hs)
    have h2 := (escapeQuote_reads_back_iff_partial (closeQuote d) t [] (by simp)).2
      (by cases d <;> exact ht)
    rw [e, h2] at h1
    simp at h1; exact h1.symm
  · exfalso
    have et : quoteIdentifier d t = t := by simp [quoteIdentifier, hnt]
    rw [et] at e
    have hh : t.head? = some (openQuote d) := by rw [← e]; simp [quoteIdentifier, hns]
    rcases (quoteIdentifier_unquoted_iff d t).1 et with hp | ⟨_, h2, _, _⟩
    · have := (pseudo_facts t hp).2.1
      cases t with
      | nil => simp at hh
      | cons c r =>
        simp at hh; subst hh
        simp only [List.all_cons, Bool.and_eq_true] at this
        exact absurd this.1 (by cases d <;> decide)
    · cases t with
      | nil => simp at hh
      | cons c r =>
        simp at hh; subst hh
        exact absurd (h2 _ List.mem_cons_self) (by cases d <;> decide)
  · exfalso
    have et : quoteIdentifier d s = s := by simp [quoteIdentifier, hns]
    rw [et] at e
    have hh : s.head? = some (openQuote d) := by rw [e]; simp [quoteIdentifier, hnt]
    rcases (quoteIdentifier_unquoted_iff d s).1 et with hp | ⟨_, h2, _, _⟩
    · have := (pseudo_facts s hp).2.1
      cases s with
      | nil => simp at hh
      | cons c r =>
        simp at hh; subst hh
        simp only [List.all_cons, Bool.and_eq_true] at this
        exact absurd this.1 (by cases d <;> decide)
    · cases s with
      | nil => simp at hh
      | cons c r =>
        simp at hh; subst hh
        exact absurd (h2 _ List.mem_cons_self) (by cases d <;> decide)
  · simpa [quoteIdentifier, hns, hnt] using e

/-- C18 fails for names with adjacent quotes: two different tables get the same quoted name. -/
theorem quoteIdentifier_injective_refuted :
    ¬ ∀ (d : Dialect) (s t : Str), quoteIdentifier d s = quoteIdentifier d t → s = t := by
  intro h
  exact absurd (h .postgres b!"a\"\"b" b!"a\"b" (by decide +kernel)) (by decide)

/-- C18 fails for the pseudo table names on Postgres: a table called `NEW` is addressed as `new`. -/
theorem quoteIdentifier_denotes_refuted :
    ¬ ∀ (s : Str), readIdent .postgres (keywords .postgres) (quoteIdentifier .postgres s)
      = some (s, []) := by
  intro h
  exact absurd (h b!"NEW") (by decide +kernel)

end Sqddl
