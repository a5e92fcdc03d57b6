import Verif.Model.SubsetText
import Verif.Spec.SubsetText
import Verif.Spec.DdlMeaning
import Verif.Props.RenderIndex
import Verif.Props.PqArray

/-!
# The text of the query of a subset dump is read
-/

namespace SelectSpec
open Go SqlSpec DdlText Sqddl Sqddl.Subset
open WipeSpec (kws readName)
open Sqddl.Render (tableName readsP_qualified readsP_toks)

/-! ## Tokens -/

/-- Lists of tokens with tokens between them. -/
def sepBy (us : List Tok) : List (List Tok) → List Tok
  | [] => []
  | [x] => x
  | x :: y :: r => x ++ (us ++ sepBy us (y :: r))

theorem readsP_sepBy {α : Type} (d : Dialect) {sep : Str} {us : List Tok} (hs : IsGap sep us) (xs : List α)
    (f : α → Str) (g : α → List Tok) (h : ∀ x ∈ xs, ReadsP d (f x) (g x)) :
    ReadsP d (join sep (xs.map f)) (sepBy us (xs.map g)) := by
  induction xs with
  | nil => exact (Reads.nil d).readsP
  | cons x r ih =>
    cases r with
    | nil => exact h x (by simp)
    | cons y r =>
      have := (h x (by simp)).piece (Piece.lit_then d sep us _ _ hs (ih fun z hz => h z (by simp [hz])))
      simpa [join, sepBy, List.append_assoc] using this

/-- The name of a table in a query. -/
def nm (t : TableID) : Name := tableName [] t.1 t.2

/-- A column of a table. -/
def ref (t : TableID) (c : Str) : Ref := ⟨nm t, c⟩

def refToks (d : Dialect) (r : Ref) : List Tok := qnameToks d r.item ++ [.punct '.', identTok d r.column]

def eqToks (d : Dialect) (e : Ref × Ref) : List Tok := refToks d e.1 ++ .punct '=' :: refToks d e.2

def joinToks (d : Dialect) (j : JoinItem) : List Tok :=
  qnameToks d j.item ++ .word b!"ON" :: sepBy [.word b!"AND"] (j.on.map (eqToks d))

def selToks (d : Dialect) (s : Sel) : List Tok :=
  sepBy [.punct ','] (s.columns.map (refToks d)) ++ .word b!"FROM" :: (qnameToks d s.first ++
    s.joins.flatMap fun j => .word b!"JOIN" :: joinToks d j)

def rowToks (d : Dialect) (r : List (List Tok)) : List Tok :=
  (if d = .mysql then [.word b!"ROW"] else []) ++ .punct '(' :: (commaSep r ++ [.punct ')'])

def cteToks (d : Dialect) (c : Cte) : List Tok :=
  .word c.name ::
  match c.body with
  | .values rows =>
    if d = .sqlserver then
      [.word b!"AS", .punct '(', .word b!"SELECT", .punct '*', .word b!"FROM", .punct '(', .word b!"VALUES"] ++
        (sepBy [.punct ','] (rows.map (rowToks d)) ++ (.punct ')' :: .word b!"AS" :: .word b!"tmp" :: .punct '(' ::
          (colToks d c.columns ++ [.punct ')', .punct ')'])))
    else .punct '(' :: (colToks d c.columns ++ (.punct ')' :: .word b!"AS" :: .punct '(' :: .word b!"VALUES" ::
      (sepBy [.punct ','] (rows.map (rowToks d)) ++ [.punct ')'])))
  | .union sels => .punct '(' :: (colToks d c.columns ++ (.punct ')' :: .word b!"AS" :: .punct '(' ::
      (sepBy [.word b!"UNION"] (sels.map fun s => .word b!"SELECT" :: .word b!"DISTINCT" :: selToks d s) ++
        [.punct ')'])))

def queryToks (d : Dialect) (q : Query) : List Tok :=
  .word b!"WITH" :: (sepBy [.punct ','] (q.ctes.map (cteToks d)) ++ .word b!"SELECT" :: (selToks d q.main ++
    .word b!"ORDER" :: .word b!"BY" :: (sepBy [.punct ','] (q.order.map (refToks d)) ++ [.punct ';'])))

theorem readsP_table (d : Dialect) (t : TableID) : ReadsP d (tableText d t) (qnameToks d (nm t)) :=
  readsP_qualified d [] t.1 t.2

theorem readsP_column (d : Dialect) (t : TableID) (c : Str) : ReadsP d (columnText d t c) (refToks d (ref t c)) := by
  have := (readsP_table d t).piece (Piece.lit_then d b!"." [.punct '.'] _ _ (by decide) (readsP_ident d c))
  simpa [columnText, refToks, ref, List.append_assoc] using this

/-- The join of a step. -/
def joinOf (s : Step) : JoinItem := ⟨nm s.table, s.on.map fun p => (ref s.table p.1, ref s.other p.2)⟩

theorem piece_step (d : Dialect) (s : Step) : Piece d (stepText d s) (.word b!"JOIN" :: joinToks d (joinOf s)) := by
  have he : ∀ p ∈ s.on, ReadsP d (equationText d s p) (eqToks d (ref s.table p.1, ref s.other p.2)) := by
    intro p _
    have := (readsP_column d s.table p.1).piece (Piece.lit_then d b!" = " [.punct '='] _ _ (by decide)
      (readsP_column d s.other p.2))
    simpa [equationText, eqToks, List.append_assoc] using this
  have h1 := readsP_sepBy d (sep := b!" AND ") (us := [.word b!"AND"]) (by decide) s.on _ _ he
  have h2 := (readsP_table d s.table).piece (Piece.lit_then d b!" ON " [.word b!"ON"] _ _ (by decide) h1)
  have h3 := Piece.lit_then d b!"\n    JOIN " [.word b!"JOIN"] _ _ (by decide) h2
  simpa [stepText, joinToks, joinOf, List.append_assoc, List.map_map, Function.comp_def] using h3

theorem Piece.flatMap {α : Type} (d : Dialect) (xs : List α) (f : α → Str) (g : α → List Tok)
    (h : ∀ x ∈ xs, Piece d (f x) (g x)) : Piece d (xs.flatMap f) (xs.flatMap g) := by
  induction xs with
  | nil => exact Piece.nil d
  | cons x r ih =>
    rw [List.flatMap_cons, List.flatMap_cons]
    exact (h x (by simp)).append (ih fun y hy => h y (by simp [hy]))

/-- The SELECT of a join. -/
def selOf (t : TableID) (cols : List Str) (q : TableID × List Step) : Sel :=
  ⟨cols.map (ref t), nm q.1, q.2.map joinOf⟩

theorem readsP_from (d : Dialect) (q : TableID × List Step) :
    ReadsP d (tableText d q.1 ++ q.2.flatMap (stepText d))
      (qnameToks d (nm q.1) ++ (q.2.map joinOf).flatMap fun j => .word b!"JOIN" :: joinToks d j) := by
  rw [List.flatMap_map]
  exact (readsP_table d q.1).piece (Piece.flatMap d _ _ _ fun s _ => piece_step d s)

theorem readsP_distinct (d : Dialect) (t : TableID) (pk : List Str) (q : TableID × List Step) :
    ReadsP d (b!"SELECT DISTINCT " ++ join b!", " (pk.map (columnText d t)) ++ b!"\n    FROM " ++
        (tableText d q.1 ++ q.2.flatMap (stepText d)))
      (.word b!"SELECT" :: .word b!"DISTINCT" :: selToks d (selOf t pk q)) := by
  have h1 := readsP_sepBy d (sep := b!", ") (us := [.punct ',']) (by decide) pk _ _
    (fun c _ => readsP_column d t c)
  have h2 := h1.piece (Piece.lit_then d b!"\n    FROM " [.word b!"FROM"] _ _ (by decide) (readsP_from d q))
  have h3 := (reads_lit d b!"SELECT DISTINCT " (by decide) (by decide)).append_p h2
  rw [show stoks b!"SELECT DISTINCT " = [.word b!"SELECT", .word b!"DISTINCT"] by decide] at h3
  simpa [selToks, selOf, List.append_assoc, List.map_map, Function.comp_def] using h3

/-- The text of a literal in a list of values. -/
def FieldOk (d : Dialect) (f : Str) : Prop := Fragment d f ∧ flat 0 (toks d f) = true

/-- A record, as tokens. -/
def recToks (d : Dialect) (r : List Str) : List (List Tok) := r.map (toks d)

theorem readsP_row (d : Dialect) (r : List Str) (h : ∀ f ∈ r, FieldOk d f) :
    ReadsP d (SubsetQuery.rowText d r) (rowToks d (recToks d r)) := by
  have h1 := join_map_pairs r id (toks d) d fun f hf => readsP_toks (h f hf).1
  rw [List.map_id] at h1
  have h2 := (h1.lit (t := b!")") (us := [.punct ')']) (by decide)).readsP
  unfold SubsetQuery.rowText rowToks recToks
  by_cases hd : d = .mysql
  · rw [if_pos hd, if_pos hd]
    have h3 := (reads_lit d b!"ROW(" (by decide) (by decide)).append_p h2
    rw [show stoks b!"ROW(" = [.word b!"ROW", .punct '('] by decide] at h3
    simpa [List.append_assoc] using h3
  · rw [if_neg hd, if_neg hd]
    have h3 := (reads_lit d b!"(" (by decide) (by decide)).append_p h2
    rw [show stoks b!"(" = [.punct '('] by decide] at h3
    simpa [List.append_assoc] using h3

theorem piece_rows (d : Dialect) (rs : List (List Str)) (h : ∀ r ∈ rs, ∀ f ∈ r, FieldOk d f) (since : Nat) :
    Piece d (SubsetQuery.rowsText d false since rs) (rs.flatMap fun r => .punct ',' :: rowToks d (recToks d r)) := by
  induction rs generalizing since with
  | nil => exact Piece.nil d
  | cons r rs ih =>
    have hr := readsP_row d r (h r (by simp))
    have ih := ih (fun x hx => h x (by simp [hx]))
      ((if since > 80 then 8 else since) + (if false then 0 else 1) + (SubsetQuery.rowText d r).length)
    rw [SubsetQuery.rowsText, List.flatMap_cons, List.append_assoc, List.append_assoc]
    simp only [Bool.false_eq_true, if_false]
    simp only [Bool.false_eq_true, if_false] at ih
    by_cases hs : since > 80
    · simp only [if_pos hs] at ih ⊢
      have := Piece.lit_then d b!"\n       ," [.punct ','] _ _ (by decide) (hr.piece ih)
      simpa [List.append_assoc] using this
    · simp only [if_neg hs] at ih ⊢
      have := Piece.lit_then d b!"," [.punct ','] _ _ (by decide) (hr.piece ih)
      simpa [List.append_assoc] using this

theorem sepBy_flatMap (us : List Tok) (x : List Tok) (xs : List (List Tok)) :
    sepBy us (x :: xs) = x ++ xs.flatMap fun y => us ++ y := by
  induction xs generalizing x with
  | nil => simp [sepBy]
  | cons y r ih => rw [sepBy, ih, List.flatMap_cons, List.append_assoc]

theorem readsP_rows (d : Dialect) (rs : List (List Str)) (h : ∀ r ∈ rs, ∀ f ∈ r, FieldOk d f) :
    ReadsP d (SubsetQuery.rowsText d true 0 rs) (sepBy [.punct ','] ((rs.map (recToks d)).map (rowToks d))) := by
  cases rs with
  | nil => exact (Reads.nil d).readsP
  | cons r rs =>
    have := (readsP_row d r (h r (by simp))).piece (piece_rows d rs (fun x hx => h x (by simp [hx]))
      ((SubsetQuery.rowText d r).length))
    rw [List.map_cons, List.map_cons, sepBy_flatMap, List.flatMap_map, List.flatMap_map]
    simpa [SubsetQuery.rowsText] using this

/-! ## The names of the results -/

/-- A word that is not quoted and that no dialect reserves. -/
structure Fixed (w : Str) : Prop where
  word : w.all wordChar = true
  ne : w ≠ []
  lower : toLower w = w
  tok : ∀ d, identTok d w = .word w
  plain : ∀ d, PlainName d w

theorem no_keyword_ends (d : Dialect) : ∀ k ∈ keywords d, k.getLast? ≠ some '_' := by
  cases d <;> decide +kernel

theorem not_keyword (d : Dialect) (w : Str) (h : w.getLast? = some '_') : w ∉ keywords d := fun hk =>
  no_keyword_ends d w hk h

theorem fixed_of (w : Str) (h : w.all plainChar = true) (hl : w.getLast? = some '_')
    (hh : w.head?.any isDigit = false) : Fixed w := by
  have hlow : toLower w = w := toLower_plain h
  rw [List.all_eq_true] at h
  have hword : w.all wordChar = true := by
    rw [List.all_eq_true]
    intro c hc
    have := h c hc
    simp only [plainChar, wordChar] at this ⊢
    rw [this, Bool.true_or]
  have hne : w ≠ [] := by rintro rfl; cases hl
  have hq : ∀ d, needsQuoting d w = false := by
    intro d
    unfold needsQuoting
    cases w with
    | nil => exact absurd rfl hne
    | cons c r =>
      dsimp only
      split
      · rfl
      · have hc : isDigit c = false := by simpa using hh
        rw [if_neg (by simp [hc]), if_pos (by rw [List.all_eq_true]; exact h), hlow]
        have := not_keyword d (c :: r) hl
        simpa using this
  refine ⟨hword, hne, hlow, fun d => by simp [identTok, hq d], fun d => ⟨?_, fun _ => ?_⟩⟩
  · rintro ⟨a, c, b, e⟩
    have := h (closeQ d) (by rw [e]; simp)
    revert this
    cases d <;> decide
  · intro hm
    have : ∀ p ∈ [b!"EXCLUDED", b!"INSERTED", b!"DELETED", b!"NEW", b!"OLD"], p.getLast? ≠ some '_' := by decide
    exact this w hm hl

theorem pkey_fixed : Fixed b!"pkey_" := fixed_of _ (by decide) (by decide) (by decide)

theorem tmp_tok (d : Dialect) : identTok d b!"tmp" = .word b!"tmp" := by cases d <;> decide +kernel

theorem result_fixed (n : Nat) : Fixed (SubsetSpec.resultName n).2 := by
  refine fixed_of _ ?_ ?_ ?_
  · rw [List.all_eq_true]
    intro c hc
    simp only [SubsetSpec.resultName, List.mem_append] at hc
    rcases hc with (hc | hc) | hc
    · revert c; decide
    · have := PqArray.toDigits_digits n c hc
      simp only [isDigit, Bool.and_eq_true, decide_eq_true_eq] at this
      simp [plainChar, this]
    · revert c; decide
  · rw [SubsetSpec.resultName]; dsimp only; rw [List.getLast?_append]; rfl
  · simp [SubsetSpec.resultName]; decide

theorem result_injective {n m : Nat} (h : (SubsetSpec.resultName n).2 = (SubsetSpec.resultName m).2) : n = m := by
  simp only [SubsetSpec.resultName, List.append_assoc, List.append_cancel_left_eq, List.append_cancel_right_eq] at h
  have h1 := PqArray.parseDigits_toDigits n
  have h2 := PqArray.parseDigits_toDigits m
  unfold itoa at h
  rw [h, h2] at h1
  cases h1
  rfl

/-! ## The text of the query -/

theorem reads_star (d : Dialect) : Reads d b!"*" [.punct '*'] := fun rest => by
  rw [List.cons_append, List.nil_append, lex_cons]
  have h : '*' ≠ openQ d := by cases d <;> decide
  have h1 : isSpace '*' = false := by decide
  have h2 : wordChar '*' = false := by decide
  simp [lexOne, h, h1, h2]

/-- The common table expression of a result. -/
def resultCte (d : Dialect) (n : Nat) (r : Result) : Cte :=
  ⟨(SubsetSpec.resultName (n + 1)).2, r.columns, .values (r.records.map (recToks d))⟩

theorem readsP_result (d : Dialect) (n : Nat) (r : Result) (h : ∀ x ∈ r.records, ∀ f ∈ x, FieldOk d f) :
    ReadsP d (SubsetQuery.resultText d n (join b!", " (r.columns.map (quoteIdentifier d))) r.records)
      (cteToks d (resultCte d n r)) := by
  have hf := result_fixed (n + 1)
  have hw := (reads_word d _ hf.ne hf.word).readsP
  have hr := readsP_rows d r.records h
  have hc := readsP_colNames d r.columns
  unfold SubsetQuery.resultText cteToks resultCte
  dsimp only
  by_cases hd : d = .sqlserver
  · rw [if_pos hd, if_pos hd, if_pos hd]
    have h1 := hr.piece (Piece.lit_then d b!") AS tmp (" [.punct ')', .word b!"AS", .word b!"tmp", .punct '('] _ _
      (by decide) (hc.piece (Piece.lit d b!")\n)\n" [.punct ')', .punct ')'] (by decide))))
    have h2 := (reads_lit d b!" FROM (VALUES " (by decide) (by decide)).append_p h1
    rw [show stoks b!" FROM (VALUES " = [.word b!"FROM", .punct '(', .word b!"VALUES"] by decide] at h2
    have h3 := (reads_star d).append_p h2
    have h4 := Piece.lit_then d b!"  AS (\n    SELECT " [.word b!"AS", .punct '(', .word b!"SELECT"] _ _ (by decide) h3
    have h5 := hw.piece h4
    simpa [SubsetSpec.resultName, List.append_assoc] using h5
  · rw [if_neg hd, if_neg hd, if_neg hd]
    have h1 := hr.piece (Piece.lit d b!"\n)\n" [.punct ')'] (by decide))
    have h2 := hc.piece (Piece.lit_then d b!") AS (\n    VALUES " [.punct ')', .word b!"AS", .punct '(', .word b!"VALUES"] _ _
      (by decide) h1)
    have h3 := hw.piece (Piece.lit_then d b!" (" [.punct '('] _ _ (by decide) h2)
    simpa [SubsetSpec.resultName, List.append_assoc] using h3

/-- The common table expression of the keys. -/
def keyCte (t : TableID) (pk : List Str) (qs : List (TableID × List Step)) : Cte :=
  ⟨b!"pkey_", pk, .union (qs.map (selOf t pk))⟩

/-- The query of a table. -/
def theQuery (d : Dialect) (t : TableID) (pk cols : List Str) (rs : List (Nat × Result))
    (qs : List (TableID × List Step)) : Query where
  ctes := rs.map (fun r => resultCte d r.1 r.2) ++ [keyCte t pk qs]
  main := ⟨cols.map (ref t), nm t, [⟨(none, b!"pkey_"), pk.map fun c => (⟨(none, b!"pkey_"), c⟩, ref t c)⟩]⟩
  order := pk.map (ref t)

theorem sepBy_append_one (us : List Tok) (xs : List (List Tok)) (h : xs ≠ []) (y : List Tok) :
    sepBy us (xs ++ [y]) = sepBy us xs ++ (us ++ y) := by
  cases xs with
  | nil => exact absurd rfl h
  | cons x xs =>
    rw [List.cons_append, sepBy_flatMap, sepBy_flatMap, List.flatMap_append]
    simp

theorem readsP_query (d : Dialect) (t : TableID) (pk cols : List Str) (rs : List (Nat × Result))
    (qs : List (TableID × List Step)) (hrs : rs ≠ []) (h : ∀ p ∈ rs, ∀ x ∈ p.2.records, ∀ f ∈ x, FieldOk d f) :
    ReadsP d (b!"WITH " ++ join b!"," (rs.map fun r => SubsetQuery.resultText d r.1
          (join b!", " (r.2.columns.map (quoteIdentifier d))) r.2.records) ++
        b!",pkey_ (" ++ join b!", " (pk.map (quoteIdentifier d)) ++ b!") AS (" ++
        (b!"\n    " ++ join b!"\n    UNION\n    " (qs.map fun q => b!"SELECT DISTINCT " ++
          join b!", " (pk.map (columnText d t)) ++ b!"\n    FROM " ++ (tableText d q.1 ++ q.2.flatMap (stepText d)))) ++
        b!"\n)\nSELECT " ++ join b!"\n    ," (cols.map (columnText d t)) ++
        b!"\nFROM " ++ tableText d t ++ b!"\nJOIN pkey_ ON " ++
        join b!" AND " (pk.map fun c => b!"pkey_." ++ quoteIdentifier d c ++ b!" = " ++ columnText d t c) ++
        (b!"\nORDER BY " ++ join b!", " (pk.map (columnText d t))) ++ b!"\n;")
      (queryToks d (theQuery d t pk cols rs qs)) := by
  have hp : identTok d b!"pkey_" = .word b!"pkey_" := pkey_fixed.tok d
  have h1 := readsP_sepBy d (sep := b!",") (us := [.punct ',']) (by decide) rs
    (fun r => SubsetQuery.resultText d r.1 (join b!", " (r.2.columns.map (quoteIdentifier d))) r.2.records)
    (fun r => cteToks d (resultCte d r.1 r.2)) (fun r hr => readsP_result d r.1 r.2 (h r hr))
  have h2 := readsP_sepBy d (sep := b!"\n    UNION\n    ") (us := [.word b!"UNION"]) (by decide) qs _ _
    (fun q _ => readsP_distinct d t pk q)
  have h3 := readsP_sepBy d (sep := b!"\n    ,") (us := [.punct ',']) (by decide) cols _ _
    (fun c _ => readsP_column d t c)
  have h4 := readsP_sepBy d (sep := b!", ") (us := [.punct ',']) (by decide) pk _ _
    (fun c _ => readsP_column d t c)
  have h5 := readsP_sepBy d (sep := b!" AND ") (us := [.word b!"AND"]) (by decide) pk
    (fun c => b!"pkey_." ++ quoteIdentifier d c ++ b!" = " ++ columnText d t c)
    (fun c => eqToks d (⟨(none, b!"pkey_"), c⟩, ref t c)) (fun c _ => by
      have := (reads_lit d b!"pkey_." (by decide) (by decide)).append_p ((readsP_ident d c).piece
        (Piece.lit_then d b!" = " [.punct '='] _ _ (by decide) (readsP_column d t c)))
      rw [show stoks b!"pkey_." = [.word b!"pkey_", .punct '.'] by decide] at this
      simpa [eqToks, refToks, qnameToks, hp, List.append_assoc] using this)
  have e1 := h4.piece (Piece.lit d b!"\n;" [.punct ';'] (by decide))
  have e2 := h5.piece (Piece.lit_then d b!"\nORDER BY " [.word b!"ORDER", .word b!"BY"] _ _ (by decide) e1)
  have e3 := (readsP_table d t).piece (Piece.lit_then d b!"\nJOIN pkey_ ON "
    [.word b!"JOIN", .word b!"pkey_", .word b!"ON"] _ _ (by decide) e2)
  have e4 := h3.piece (Piece.lit_then d b!"\nFROM " [.word b!"FROM"] _ _ (by decide) e3)
  have e5 := h2.piece (Piece.lit_then d b!"\n)\nSELECT " [.punct ')', .word b!"SELECT"] _ _ (by decide) e4)
  have e6 := (readsP_colNames d pk).piece (Piece.lit_then d b!") AS (\n    "
    [.punct ')', .word b!"AS", .punct '('] _ _ (by decide) e5)
  have e7 := h1.piece (Piece.lit_then d b!",pkey_ (" [.punct ',', .word b!"pkey_", .punct '('] _ _ (by decide) e6)
  have e8 := (reads_lit d b!"WITH " (by decide) (by decide)).append_p e7
  rw [show stoks b!"WITH " = [.word b!"WITH"] by decide] at e8
  have ht : queryToks d (theQuery d t pk cols rs qs) = [.word b!"WITH"] ++ (sepBy [.punct ',']
      (rs.map fun r => cteToks d (resultCte d r.1 r.2)) ++ ([.punct ',', .word b!"pkey_", .punct '('] ++
      (colToks d pk ++ ([.punct ')', .word b!"AS", .punct '('] ++ (sepBy [.word b!"UNION"] (qs.map fun q =>
        .word b!"SELECT" :: .word b!"DISTINCT" :: selToks d (selOf t pk q)) ++ ([.punct ')', .word b!"SELECT"] ++
      (sepBy [.punct ','] (cols.map fun c => refToks d (ref t c)) ++ ([.word b!"FROM"] ++ (qnameToks d (nm t) ++
      ([.word b!"JOIN", .word b!"pkey_", .word b!"ON"] ++ (sepBy [.word b!"AND"]
        (pk.map fun c => eqToks d (⟨(none, b!"pkey_"), c⟩, ref t c)) ++ ([.word b!"ORDER", .word b!"BY"] ++
      (sepBy [.punct ','] (pk.map fun c => refToks d (ref t c)) ++ [.punct ';']))))))))))))) := by
    unfold queryToks theQuery
    dsimp only
    rw [List.map_append, List.map_cons, List.map_nil, sepBy_append_one _ _ (by simpa using hrs)]
    simp [cteToks, keyCte, selToks, joinToks, qnameToks, hp, List.append_assoc, List.map_map, Function.comp_def]
  rw [ht]
  simpa [List.append_assoc] using e8

end SelectSpec
