import Verif.Model.HistoryText
import Verif.Spec.HistoryText
import Verif.Props.History
import Verif.Lemmas.InsertRun

/-!
# The statements on the history table are read
-/

namespace HistorySql
open Go SqlSpec DdlText Sqddl Sqddl.Migrate
open WipeSpec (kws readName)
open SelectSpec (many mark ident whole sepBy many_eq sepBy_length mark_self ident_eq kws_one readsP_sepBy)
open InsertSpec (commaSep_eq)

/-! ## Literals -/

theorem readQuoted_append (n : Nat) : ∀ (s v rest : Str), s.length ≤ n → readQuoted '\'' s = some (v, []) →
    rest.head? ≠ some '\'' → readQuoted '\'' (s ++ rest) = some (v, rest) := by
  induction n with
  | zero =>
    intro s v rest hn h _
    have : s = [] := List.length_eq_zero_iff.1 (by omega)
    subst this
    cases h
  | succ n ih =>
    intro s v rest hn h hr
    match s, hn, h with
    | [], _, h => cases h
    | [c], _, h =>
      unfold readQuoted at h
      by_cases hc : c = '\''
      · rw [if_pos hc] at h
        cases h
        cases rest with
        | nil => simp [readQuoted, hc]
        | cons x rest =>
          have hx : x ≠ '\'' := by simpa using hr
          simp [readQuoted, hc, hx]
      · rw [if_neg hc] at h; cases h
    | c :: x :: s, hn, h =>
      simp only [List.length_cons] at hn
      rw [readQuoted] at h
      rw [List.cons_append, List.cons_append, readQuoted]
      by_cases hc : c = '\''
      · rw [if_pos hc] at h ⊢
        by_cases hx : x = '\''
        · rw [if_pos hx] at h ⊢
          cases e : readQuoted '\'' s with
          | none => rw [e] at h; cases h
          | some p =>
            obtain ⟨w, t⟩ := p
            rw [e] at h
            cases h
            rw [ih s w rest (by omega) e hr]
            rfl
        · rw [if_neg hx] at h; cases h
      · rw [if_neg hc] at h ⊢
        cases e : readQuoted '\'' (x :: s) with
        | none => rw [e] at h; cases h
        | some p =>
          obtain ⟨w, t⟩ := p
          rw [e] at h
          cases h
          have := ih (x :: s) w rest (by simp only [List.length_cons]; omega) e hr
          rw [List.cons_append] at this
          rw [this]
          rfl

theorem readMySQL_append (n : Nat) : ∀ (s v rest : Str), s.length ≤ n → readMySQLString s = some (v, []) →
    rest.head? ≠ some '\'' → readMySQLString (s ++ rest) = some (v, rest) := by
  induction n with
  | zero =>
    intro s v rest hn h _
    have : s = [] := List.length_eq_zero_iff.1 (by omega)
    subst this
    cases h
  | succ n ih =>
    intro s v rest hn h hr
    match s, hn, h with
    | [], _, h => cases h
    | [c], _, h =>
      unfold readMySQLString at h
      by_cases hc : c = '\''
      · rw [if_pos hc] at h
        cases h
        cases rest with
        | nil => simp [readMySQLString, hc]
        | cons x rest =>
          have hx : x ≠ '\'' := by simpa using hr
          simp [readMySQLString, hc, hx]
      · rw [if_neg hc] at h; cases h
    | c :: x :: s, hn, h =>
      simp only [List.length_cons] at hn
      rw [readMySQLString] at h
      rw [List.cons_append, List.cons_append, readMySQLString]
      by_cases hc : c = '\''
      · rw [if_pos hc] at h ⊢
        by_cases hx : x = '\''
        · rw [if_pos hx] at h ⊢
          cases e : readMySQLString s with
          | none => rw [e] at h; cases h
          | some p =>
            obtain ⟨w, t⟩ := p
            rw [e] at h
            cases h
            rw [ih s w rest (by omega) e hr]
            rfl
        · rw [if_neg hx] at h; cases h
      · rw [if_neg hc] at h ⊢
        by_cases hb : c = '\\'
        · rw [if_pos hb] at h ⊢
          cases e : readMySQLString s with
          | none => rw [e] at h; cases h
          | some p =>
            obtain ⟨w, t⟩ := p
            rw [e] at h
            cases h
            rw [ih s w rest (by omega) e hr]
            rfl
        · rw [if_neg hb] at h ⊢
          cases e : readMySQLString (x :: s) with
          | none => rw [e] at h; cases h
          | some p =>
            obtain ⟨w, t⟩ := p
            rw [e] at h
            cases h
            have := ih (x :: s) w rest (by simp only [List.length_cons]; omega) e hr
            rw [List.cons_append] at this
            rw [this]
            rfl

theorem readString_append (d : Dialect) (s v rest : Str) (h : readString d s = some (v, []))
    (hr : rest.head? ≠ some '\'') : readString d (s ++ rest) = some (v, rest) := by
  cases d
  case mysql => exact readMySQL_append _ s v rest (Nat.le_refl _) h hr
  all_goals exact readQuoted_append _ s v rest (Nat.le_refl _) h hr

/-- A complete literal is read as the name that it denotes. -/
theorem readsP_name (d : Dialect) (f v : Str) (h : literalName d f = some v) : ReadsP d (nameText f) [.str v] := by
  intro rest hr
  have e : readString d (escapeQuote '\'' f ++ ['\'']) = some (v, []) := by
    unfold literalName at h
    split at h
    · cases h; assumption
    · cases h
  have e1 := readString_append d _ v rest e hr.2.1
  have e2 : nameText f ++ rest = '\'' :: (escapeQuote '\'' f ++ ['\''] ++ rest) := by simp [nameText]
  have ho : '\'' ≠ openQ d := by cases d <;> decide
  have hs : isSpace '\'' = false := by decide
  rw [e2, lex_cons]
  simp only [List.append_assoc, List.cons_append, List.nil_append] at e1 ⊢
  simp [lexOne, hs, ho, e1]

/-- The tokens of literals. -/
def valToks (vs : List Str) : List Tok := commaSep (vs.map fun v => [.str v])

theorem readsP_names (d : Dialect) (fs vs : List Str) (h : fs.mapM (literalName d) = some vs) :
    ReadsP d (namesText fs) (valToks vs) := by
  have hf : ∀ f ∈ fs, ReadsP d (nameText f) [.str ((literalName d f).getD [])] := by
    intro f hf
    cases e : literalName d f with
    | none =>
      exfalso
      have : fs.mapM (literalName d) = none := by
        clear h
        induction fs with
        | nil => cases hf
        | cons g fs ih =>
          rw [List.mapM_cons]
          rcases List.mem_cons.1 hf with rfl | hf
          · rw [e]; rfl
          · rw [ih hf]; cases literalName d g <;> rfl
      rw [this] at h
      cases h
    | some v => exact readsP_name d f v e
  have e : vs = fs.map fun f => (literalName d f).getD [] := by
    clear hf
    induction fs generalizing vs with
    | nil => cases h; rfl
    | cons g fs ih =>
      rw [List.mapM_cons] at h
      cases e1 : literalName d g with
      | none => rw [e1] at h; cases h
      | some v =>
        cases e2 : fs.mapM (literalName d) with
        | none => rw [e1, e2] at h; cases h
        | some ws =>
          rw [e1, e2] at h
          cases h
          rw [List.map_cons, e1, ← ih ws e2]
          rfl
  have := readsP_sepBy d (sep := b!", ") (us := [.punct ',']) (by decide) fs _ _ hf
  unfold namesText valToks
  rw [commaSep_eq, e, List.map_map]
  exact this

theorem flat_vals (vs : List Str) : ∀ x ∈ vs.map (fun v => [Tok.str v]), flat 0 x := by
  intro x hx
  obtain ⟨v, _, rfl⟩ := List.mem_map.1 hx
  simp [flat, deeper]

theorem readVals_eq (d : Dialect) (vs : List Str) (h : vs ≠ [] ∨ d = .sqlite) : readVals d (valToks vs) = some vs := by
  unfold readVals
  cases vs with
  | nil => rcases h with h | h
           · exact absurd rfl h
           · subst h; rfl
  | cons v vs =>
    have h0 : valToks (v :: vs) ≠ [] := by unfold valToks; cases vs <;> simp [commaSep]
    rw [if_neg h0]
    unfold valToks
    rw [splitTop_commaSep _ (by simp) (flat_vals _)]
    generalize v :: vs = ws
    induction ws with
    | nil => rfl
    | cons w ws ih => rw [List.map_cons, List.mapM_cons, ih]; rfl

theorem bal_vals (vs : List Str) : bal 0 (valToks vs) := bal_commaSep _ (flat_vals _)

/-! ## Conditions -/

theorem ident_filename (d : Dialect) (r : List Tok) :
    ident d (keywords d) (.word b!"filename" :: r) = some (b!"filename", r) := by
  have : nameOf d (keywords d) (.word b!"filename") = some b!"filename" := by cases d <;> decide +kernel
  simp [ident, this]

/-- The tokens of a condition on the names. -/
def condToks (neg : Bool) (vs : List Str) : List Tok :=
  .word b!"filename" :: ((if neg then [.word b!"NOT"] else []) ++ .word b!"IN" :: .punct '(' :: (valToks vs ++ [.punct ')']))

theorem readCond_eq (d : Dialect) (neg : Bool) (vs : List Str) (h : vs ≠ [] ∨ d = .sqlite) (r : List Tok) :
    readCond d (keywords d) (condToks neg vs ++ r) = some (⟨neg, b!"filename", vs⟩, r) := by
  have hb := inBrackets_eq (valToks vs) r (bal_vals vs)
  have h1 : optKw [b!"NOT"] ((if neg then [.word b!"NOT"] else []) ++ .word b!"IN" :: .punct '(' ::
      (valToks vs ++ .punct ')' :: r)) = (neg, .word b!"IN" :: .punct '(' :: (valToks vs ++ .punct ')' :: r)) := by
    cases neg
    · rfl
    · rfl
  unfold readCond condToks
  simp only [List.cons_append, List.append_assoc, List.nil_append]
  rw [ident_filename, Option.bind_some]
  dsimp only
  rw [h1]
  dsimp only
  rw [kws_one, Option.bind_some, hb, Option.bind_some]
  dsimp only
  rw [readVals_eq d vs h]
  rfl

/-! ## Statements -/

/-- The columns of the table. -/
def columns : List Str := [b!"filename", b!"checksum", b!"started_at", b!"time_taken_ns", b!"success"]

theorem ident_column (d : Dialect) : ∀ c ∈ columns, ∀ r, ident d (keywords d) ([.word c] ++ r) = some (c, r) := by
  intro c hc r
  have : ∀ c ∈ columns, nameOf d (keywords d) (.word c) = some c := by cases d <;> decide +kernel
  simp [ident, this c hc]

theorem readColumns_eq (d : Dialect) (cs : List Str) (h0 : cs ≠ []) (h : ∀ c ∈ cs, c ∈ columns) (r : List Tok)
    (hr : mark ',' r = none) (n : Nat) (hn : cs.length ≤ n) :
    many (ident d (keywords d)) (mark ',') n (sepBy [.punct ','] (cs.map fun c => [.word c]) ++ r) = some (cs, r) :=
  many_eq (Ok := fun _ => True) (fun c => [.word c]) (fun _ => trivial) (mark_self ',') r trivial hr cs h0
    (fun c hc r _ => ident_column d c (h c hc) r) n hn

theorem readName_table (d : Dialect) (table : Str) (ht : PlainName d table) (w : Str) (r : List Tok) :
    readName d (keywords d) (identTok d table :: .word w :: r) = some (none, table, .word w :: r) :=
  readName_qname d (none, table) (by simp) ht (.word w :: r) (by simp)

/-- The tokens between the brackets, with the closing bracket. -/
theorem readsP_closed (d : Dialect) (fs vs : List Str) (h : fs.mapM (literalName d) = some vs) :
    ReadsP d (namesText fs ++ b!")") (valToks vs ++ [.punct ')']) :=
  ((readsP_names d fs vs h).lit (t := b!")") (us := [.punct ')']) (by decide)).readsP

theorem select_stmt (d : Dialect) (table : Str) (ht : PlainName d table) (fs vs : List Str)
    (h : fs.mapM (literalName d) = some vs) (h0 : vs ≠ [] ∨ d = .sqlite) :
    stmtOf d (keywords d) (selectText d table fs) =
      some (.select columns (none, table) ⟨false, b!"filename", vs⟩ []) := by
  have h2 := Piece.lit_then d b!" WHERE filename IN (" [.word b!"WHERE", .word b!"filename", .word b!"IN", .punct '(']
    _ _ (by decide) (readsP_closed d fs vs h)
  have h3 := (reads_lit d b!"SELECT filename, checksum, started_at, time_taken_ns, success FROM " (by decide)
    (by decide)).append_p ((readsP_ident d table).piece h2)
  rw [show stoks b!"SELECT filename, checksum, started_at, time_taken_ns, success FROM " =
    .word b!"SELECT" :: (sepBy [.punct ','] (columns.map fun c => [.word c]) ++ [.word b!"FROM"]) by decide] at h3
  have e : selectText d table fs = b!"SELECT filename, checksum, started_at, time_taken_ns, success FROM " ++
      (quoteIdentifier d table ++ (b!" WHERE filename IN (" ++ (namesText fs ++ b!")"))) := by
    simp only [selectText, List.append_assoc]
  unfold stmtOf
  rw [e, lex_of_readsP h3, Option.bind_some]
  simp only [List.cons_append, List.append_assoc, List.nil_append]
  unfold readStmt
  rw [kws_one]
  dsimp only
  unfold readSelect
  rw [readColumns_eq d columns (by decide) (fun _ h => h) _ rfl _ (by
    refine Nat.le_trans (sepBy_length [.punct ','] (columns.map fun c => [Tok.word c]) ?_) (by simp)
    intro x hx
    obtain ⟨c, _, rfl⟩ := List.mem_map.1 hx
    simp), Option.bind_some]
  dsimp only
  rw [kws_one, Option.bind_some, readName_table d table ht, Option.bind_some]
  dsimp only
  rw [kws_one, Option.bind_some]
  have := readCond_eq d false vs h0 []
  unfold condToks at this
  simp only [List.append_nil, Bool.false_eq_true, if_false, List.nil_append] at this
  rw [this]
  rfl

theorem delete_stmt (d : Dialect) (table : Str) (ht : PlainName d table) (fs vs : List Str)
    (h : fs.mapM (literalName d) = some vs) (h0 : vs ≠ [] ∨ d = .sqlite) :
    stmtOf d (keywords d) (deleteText d table fs) = some (.delete (none, table) ⟨false, b!"filename", vs⟩) := by
  have h2 := Piece.lit_then d b!" WHERE filename IN (" [.word b!"WHERE", .word b!"filename", .word b!"IN", .punct '(']
    _ _ (by decide) (readsP_closed d fs vs h)
  have h3 := (reads_lit d b!"DELETE FROM " (by decide) (by decide)).append_p ((readsP_ident d table).piece h2)
  rw [show stoks b!"DELETE FROM " = [.word b!"DELETE", .word b!"FROM"] by decide] at h3
  have e : deleteText d table fs = b!"DELETE FROM " ++
      (quoteIdentifier d table ++ (b!" WHERE filename IN (" ++ (namesText fs ++ b!")"))) := by
    simp only [deleteText, List.append_assoc]
  unfold stmtOf
  rw [e, lex_of_readsP h3, Option.bind_some]
  simp only [List.cons_append, List.nil_append]
  unfold readStmt
  rw [show ∀ r, kws [b!"SELECT"] (.word b!"DELETE" :: r) = none from fun _ => rfl]
  dsimp only
  rw [show ∀ r, kws [b!"DELETE", b!"FROM"] (.word b!"DELETE" :: .word b!"FROM" :: r) = some r from
    kws_self [b!"DELETE", b!"FROM"]]
  dsimp only
  unfold readDelete
  rw [readName_table d table ht, Option.bind_some]
  dsimp only
  rw [kws_one, Option.bind_some]
  have := readCond_eq d false vs h0 []
  unfold condToks at this
  simp only [List.append_nil, Bool.false_eq_true, if_false, List.nil_append] at this
  rw [this]
  rfl

theorem rename_stmt (d : Dialect) (table : Str) (ht : PlainName d table) (src dest s t : Str)
    (hs : literalName d src = some s) (hd : literalName d dest = some t) :
    stmtOf d (keywords d) (renameText d table src dest) =
      some (.update (none, table) b!"filename" t b!"filename" s) := by
  have h1 := Piece.lit_then d b!" WHERE filename = " [.word b!"WHERE", .word b!"filename", .punct '=']
    _ _ (by decide) (readsP_name d src s hs)
  have h2 := Piece.lit_then d b!" SET filename = " [.word b!"SET", .word b!"filename", .punct '=']
    _ _ (by decide) ((readsP_name d dest t hd).piece h1)
  have h3 := (reads_lit d b!"UPDATE " (by decide) (by decide)).append_p ((readsP_ident d table).piece h2)
  rw [show stoks b!"UPDATE " = [.word b!"UPDATE"] by decide] at h3
  have e : renameText d table src dest = b!"UPDATE " ++ (quoteIdentifier d table ++ (b!" SET filename = " ++
      (nameText dest ++ (b!" WHERE filename = " ++ nameText src)))) := by
    simp only [renameText, List.append_assoc]
  unfold stmtOf
  rw [e, lex_of_readsP h3, Option.bind_some]
  simp only [List.cons_append, List.nil_append]
  unfold readStmt
  rw [show ∀ r, kws [b!"SELECT"] (.word b!"UPDATE" :: r) = none from fun _ => rfl]
  dsimp only
  rw [show ∀ r, kws [b!"DELETE", b!"FROM"] (.word b!"UPDATE" :: r) = none from fun _ => rfl]
  dsimp only
  rw [kws_one, Option.bind_some]
  unfold readUpdate
  rw [readName_table d table ht, Option.bind_some]
  dsimp only
  rw [kws_one, Option.bind_some]
  unfold readEqual
  rw [ident_filename, Option.bind_some]
  dsimp only
  rw [show ∀ r, mark '=' (.punct '=' :: r) = some r from mark_self '=', Option.bind_some]
  simp only [readText, Option.map_some, Option.bind_some]
  rw [kws_one, Option.bind_some, ident_filename, Option.bind_some]
  rfl

theorem readOrders_eq (d : Dialect) : readOrders d (keywords d) [.word b!"ORDER", .word b!"BY", .word b!"CASE",
    .word b!"WHEN", .word b!"filename", .word b!"LIKE", .str b!"repeatable/%", .word b!"THEN", .word b!"1",
    .word b!"ELSE", .word b!"0", .word b!"END", .punct ',', .word b!"filename"] =
    some [.like b!"filename" b!"repeatable/%", .column b!"filename"] := by
  cases d <;> decide +kernel

theorem missing_stmt (d : Dialect) (table : Str) (ht : PlainName d table) (fs vs : List Str)
    (h : fs.mapM (literalName d) = some vs) (h0 : vs ≠ [] ∨ d = .sqlite) :
    stmtOf d (keywords d) (missingText d table fs) =
      some (.select [b!"filename"] (none, table) ⟨true, b!"filename", vs⟩
        [.like b!"filename" b!"repeatable/%", .column b!"filename"]) := by
  have k1 := Piece.lit d b!" THEN 1 ELSE 0 END, filename" [.word b!"THEN", .word b!"1", .word b!"ELSE", .word b!"0",
    .word b!"END", .punct ',', .word b!"filename"] (by decide)
  have k2 := Piece.lit_then d b!") ORDER BY CASE WHEN filename LIKE " [.punct ')', .word b!"ORDER", .word b!"BY",
    .word b!"CASE", .word b!"WHEN", .word b!"filename", .word b!"LIKE"] _ _ (by decide)
    ((readsP_str d b!"repeatable/%" (by decide)).piece k1)
  have h2 := Piece.lit_then d b!" WHERE filename NOT IN (" [.word b!"WHERE", .word b!"filename", .word b!"NOT",
    .word b!"IN", .punct '('] _ _ (by decide) ((readsP_names d fs vs h).piece k2)
  have h3 := (reads_lit d b!"SELECT filename FROM " (by decide) (by decide)).append_p ((readsP_ident d table).piece h2)
  rw [show stoks b!"SELECT filename FROM " = [.word b!"SELECT", .word b!"filename", .word b!"FROM"] by decide] at h3
  have e : missingText d table fs = b!"SELECT filename FROM " ++ (quoteIdentifier d table ++
      (b!" WHERE filename NOT IN (" ++ (namesText fs ++ (b!") ORDER BY CASE WHEN filename LIKE " ++
        ('\'' :: (b!"repeatable/%" ++ ['\'']) ++ b!" THEN 1 ELSE 0 END, filename"))))) := by
    simp only [missingText, List.append_assoc]
    rfl
  unfold stmtOf
  rw [e, lex_of_readsP h3, Option.bind_some]
  simp only [List.cons_append, List.nil_append]
  unfold readStmt
  rw [kws_one]
  dsimp only
  unfold readSelect
  have hc := readColumns_eq d [b!"filename"] (by decide) (by decide)
  simp only [List.map_cons, List.map_nil, sepBy, List.cons_append, List.nil_append] at hc
  rw [hc _ rfl _ (by simp), Option.bind_some]
  dsimp only
  rw [kws_one, Option.bind_some, readName_table d table ht, Option.bind_some]
  dsimp only
  rw [kws_one, Option.bind_some]
  have := readCond_eq d true vs h0
  unfold condToks at this
  simp only [if_true, List.cons_append, List.append_assoc, List.nil_append] at this
  rw [this, Option.bind_some]
  dsimp only
  rw [readOrders_eq]
  rfl

end HistorySql
