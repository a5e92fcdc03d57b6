import Verif.Lemmas.InsertText

/-!
# The statements of a batch insert are read
-/

namespace InsertSpec
open Go SqlSpec DdlText Sqddl
open WipeSpec (kws readName)
open SelectSpec (many mark ident readRef readEquation whole sepBy eqToks NameOk RefOk many_eq sepBy_length
  mark_self ident_eq kws_one NoDot noDot_punct noDot_word)
open SelectSpec (fixed_of Fixed readsP_sepBy bal_sepBy bal_cons_word bal_eq bal_brackets readEquation_eq eqToks_ne
  bal_qname readRef_eq dot_head ident_fixed)
open Sqddl.Render (tableName readsP_qualified)
open BatchSpec (SetVal)
open Sqddl.BatchInsert (rowValues_eq)

theorem commaSep_eq (xs : List (List Tok)) : commaSep xs = sepBy [.punct ','] xs := by
  induction xs with
  | nil => rfl
  | cons x xs ih =>
    cases xs with
    | nil => rfl
    | cons y r => rw [commaSep, sepBy, ih]; rfl

/-- The names of a batch insert can be written. -/
structure NamesOk (bi : BatchInsert) : Prop where
  schema : bi.schema ≠ [] → PlainName bi.dialect bi.schema
  table : PlainName bi.dialect bi.table
  some : bi.columns ≠ []
  columns : ∀ c ∈ bi.columns, PlainName bi.dialect c
  keys : ∀ c ∈ bi.keys, PlainName bi.dialect c

/-- The name of the table. -/
def nameOf (bi : BatchInsert) : Name := (if bi.schema ≠ [] then some bi.schema else none, bi.table)

theorem NamesOk.name {bi : BatchInsert} (h : NamesOk bi) : NameOk bi.dialect (nameOf bi) := by
  refine ⟨fun s hs => ?_, h.table⟩
  unfold nameOf at hs
  by_cases he : bi.schema ≠ []
  · rw [if_pos he] at hs
    cases hs
    exact h.schema he
  · rw [if_neg he] at hs; cases hs

theorem readsP_table (bi : BatchInsert) : ReadsP bi.dialect bi.tableName (qnameToks bi.dialect (nameOf bi)) := by
  have h := readsP_qualified bi.dialect [] bi.schema bi.table
  have e1 : Sqddl.Wipe.qualified bi.dialect [] bi.schema bi.table = bi.tableName := by
    unfold Sqddl.Wipe.qualified BatchInsert.tableName
    by_cases hs : bi.schema = [] <;> simp [hs]
  have e2 : tableName [] bi.schema bi.table = nameOf bi := by
    unfold tableName nameOf
    by_cases hs : bi.schema = [] <;> simp [hs]
  rwa [e1, e2] at h

theorem tmp_fixed : Fixed b!"tmp_" := fixed_of _ (by decide) (by decide) (by decide)

def tmp : Name := (none, b!"tmp_")

/-- The equations of the key. -/
def equations (bi : BatchInsert) : List (SelectSpec.Ref × SelectSpec.Ref) := bi.keys.map fun c => (⟨nameOf bi, c⟩, ⟨tmp, c⟩)

def equationToks (bi : BatchInsert) : List Tok := sepBy [.word b!"AND"] ((equations bi).map (eqToks bi.dialect))

theorem readsP_keysMatch (bi : BatchInsert) : ReadsP bi.dialect bi.keysMatch (equationToks bi) := by
  unfold BatchInsert.keysMatch equationToks equations
  rw [List.map_map]
  refine readsP_sepBy bi.dialect (sep := b!" AND ") (us := [.word b!"AND"]) (by decide) bi.keys _ _ fun c _ => ?_
  have h1 := Piece.lit_then bi.dialect b!" = tmp_." [.punct '=', .word b!"tmp_", .punct '.'] _ _ (by decide)
    (readsP_ident bi.dialect c)
  have h2 := Piece.lit_then bi.dialect b!"." [.punct '.'] _ _ (by decide) ((readsP_ident bi.dialect c).piece h1)
  have h3 := (readsP_table bi).piece h2
  have e : eqToks bi.dialect (⟨nameOf bi, c⟩, ⟨tmp, c⟩) = qnameToks bi.dialect (nameOf bi) ++ ([.punct '.'] ++
      ([identTok bi.dialect c] ++ ([.punct '=', .word b!"tmp_", .punct '.'] ++ [identTok bi.dialect c]))) := by
    simp [eqToks, SelectSpec.refToks, tmp, qnameToks, tmp_fixed.tok bi.dialect, List.append_assoc]
  rw [Function.comp_apply, e]
  simpa [List.append_assoc] using h3

theorem readEquations_eq (bi : BatchInsert) (h : NamesOk bi) (hk : bi.keys ≠ []) :
    whole (many (readEquation bi.dialect (keywords bi.dialect)) (kws [b!"AND"]) (equationToks bi).length
      (equationToks bi)) = some (equations bi) := by
  have hl := sepBy_length [.word b!"AND"] ((equations bi).map (eqToks bi.dialect)) (by
    intro x hx
    obtain ⟨e, _, rfl⟩ := List.mem_map.1 hx
    exact eqToks_ne _ e)
  rw [List.length_map] at hl
  have := many_eq (item := readEquation bi.dialect (keywords bi.dialect)) (sep := kws [b!"AND"]) (us := [.word b!"AND"])
    (Ok := NoDot) (eqToks bi.dialect) (fun r => noDot_word _ r) (fun r => kws_one _ r) [] rfl rfl (equations bi)
    (by simpa [equations] using hk) (fun e he r hr => by
      obtain ⟨c, hc, rfl⟩ := List.mem_map.1 he
      exact readEquation_eq bi.dialect _ ⟨⟨h.name, h.keys c hc⟩,
        ⟨⟨by simp [tmp], tmp_fixed.plain _⟩, h.keys c hc⟩⟩ r hr) _ hl
  rw [List.append_nil] at this
  unfold whole
  rw [equationToks, this]
  rfl

theorem bal_equations (bi : BatchInsert) : bal 0 (equationToks bi) = true := by
  refine bal_sepBy _ (by decide) _ ?_
  intro x hx
  obtain ⟨e, _, rfl⟩ := List.mem_map.1 hx
  exact bal_eq _ e

/-! ## INSERT with VALUES -/

/-- The action for rows that are there. -/
def actionOf (bi : BatchInsert) : Action :=
  match bi.keys with
  | [] => .refuse
  | k :: ks => match bi.dialect with
    | .sqlite | .postgres =>
      if bi.nonKeys ≠ [] then .set (some (k :: ks)) (bi.nonKeys.map fun c => (c, .new c)) else .nothing (k :: ks)
    | .mysql => .set none (if bi.nonKeys ≠ [] then bi.nonKeys.map fun c => (c, .new c) else [(k, .old k)])
    | _ => .refuse

/-- Assignments of an action. -/
def setToks (d : Dialect) (s : Str × SetVal) : List Tok :=
  identTok d s.1 :: .punct '=' :: (match s.2 with
    | .new c => if d = .mysql then [.word b!"VALUES", .punct '(', identTok d c, .punct ')']
        else [.word b!"EXCLUDED", .punct '.', identTok d c]
    | .old c => [identTok d c])

def actionToks (d : Dialect) : Action → List Tok
  | .refuse => []
  | .nothing ks => .word b!"ON" :: .word b!"CONFLICT" :: .punct '(' :: (colToks d ks ++ .punct ')' ::
      [.word b!"DO", .word b!"NOTHING"])
  | .set (some ks) sets => .word b!"ON" :: .word b!"CONFLICT" :: .punct '(' :: (colToks d ks ++ .punct ')' ::
      .word b!"DO" :: .word b!"UPDATE" :: .word b!"SET" :: sepBy [.punct ','] (sets.map (setToks d)))
  | .set none sets => .word b!"ON" :: .word b!"DUPLICATE" :: .word b!"KEY" :: .word b!"UPDATE" ::
      sepBy [.punct ','] (sets.map (setToks d))

theorem piece_excluded (d : Dialect) (hd : d ≠ .mysql) (c : Str) :
    ReadsP d (quoteIdentifier d c ++ b!" = EXCLUDED." ++ quoteIdentifier d c) (setToks d (c, .new c)) := by
  have h := (readsP_ident d c).piece (Piece.lit_then d b!" = EXCLUDED."
    [.punct '=', .word b!"EXCLUDED", .punct '.'] _ _ (by decide) (readsP_ident d c))
  simpa [setToks, hd, List.append_assoc] using h

theorem piece_values (c : Str) :
    ReadsP .mysql (quoteIdentifier .mysql c ++ b!" = VALUES(" ++ quoteIdentifier .mysql c ++ b!")")
      (setToks .mysql (c, .new c)) := by
  have h := (readsP_ident .mysql c).piece (Piece.lit_then .mysql b!" = VALUES("
    [.punct '=', .word b!"VALUES", .punct '('] _ _ (by decide)
    ((readsP_ident .mysql c).lit (t := b!")") (us := [.punct ')']) (by decide)).readsP)
  simpa [setToks, List.append_assoc] using h

theorem piece_old (d : Dialect) (c : Str) :
    ReadsP d (quoteIdentifier d c ++ b!" = " ++ quoteIdentifier d c) (setToks d (c, .old c)) := by
  have h := (readsP_ident d c).piece (Piece.lit_then d b!" = " [.punct '='] _ _ (by decide) (readsP_ident d c))
  simpa [setToks, List.append_assoc] using h

theorem readsP_conflict (d : Dialect) (ks : List Str) (s : Str) (ts : List Tok) (h : ReadsP d s ts) :
    Piece d (b!" ON CONFLICT (" ++ join b!", " (ks.map (quoteIdentifier d)) ++ b!") " ++ s)
      (.word b!"ON" :: .word b!"CONFLICT" :: .punct '(' :: (colToks d ks ++ .punct ')' :: ts)) := by
  have h1 := (readsP_colNames d ks).piece (Piece.lit_then d b!") " [.punct ')'] _ _ (by decide) h)
  have h2 := Piece.lit_then d b!" ON CONFLICT (" [.word b!"ON", .word b!"CONFLICT", .punct '('] _ _ (by decide) h1
  simpa [List.append_assoc] using h2

/-- The end of an INSERT that has an action. -/
theorem piece_insertEnd (bi : BatchInsert) (hd : bi.dialect = .sqlite ∨ bi.dialect = .postgres ∨ bi.dialect = .mysql)
    (hk : bi.keys ≠ []) : Piece bi.dialect bi.insertEnd (actionToks bi.dialect (actionOf bi)) := by
  have lit : ∀ (d : Dialect), ReadsP d b!"DO NOTHING" [.word b!"DO", .word b!"NOTHING"] := fun d => by
    have h := (reads_word d b!"DO" (by decide) (by decide)).readsP.piece
      (Piece.lit_then d b!" " [] _ _ (by decide) (reads_word d b!"NOTHING" (by decide) (by decide)).readsP)
    simpa using h
  have upd : ∀ (d : Dialect) (s : Str) (ts : List Tok), ReadsP d s ts →
      ReadsP d (b!"DO UPDATE SET " ++ s) (.word b!"DO" :: .word b!"UPDATE" :: .word b!"SET" :: ts) := fun d s ts h => by
    have h1 := (reads_word d b!"DO" (by decide) (by decide)).readsP.piece
      (Piece.lit_then d b!" UPDATE SET " [.word b!"UPDATE", .word b!"SET"] _ _ (by decide) h)
    simpa using h1
  have sets : ∀ d, d ≠ .mysql → ReadsP d (join b!", " (bi.nonKeys.map fun c =>
      quoteIdentifier d c ++ b!" = EXCLUDED." ++ quoteIdentifier d c))
      (sepBy [.punct ','] ((bi.nonKeys.map fun c => (c, SetVal.new c)).map (setToks d))) := fun d hd => by
    rw [List.map_map]
    exact readsP_sepBy d (by decide) bi.nonKeys _ _ fun c _ => piece_excluded d hd c
  obtain ⟨k, ks, e⟩ : ∃ k ks, bi.keys = k :: ks := List.exists_cons_of_ne_nil hk
  unfold BatchInsert.insertEnd actionOf
  rw [e]
  dsimp only
  rcases hd with hd | hd | hd
  all_goals rw [hd]
  all_goals dsimp only
  all_goals by_cases hn : bi.nonKeys ≠ []
  all_goals simp only [if_pos hn, if_neg hn]
  · exact readsP_conflict _ _ _ _ (upd _ _ _ (sets _ (by decide)))
  · exact readsP_conflict _ _ _ _ (lit _)
  · exact readsP_conflict _ _ _ _ (upd _ _ _ (sets _ (by decide)))
  · exact readsP_conflict _ _ _ _ (lit _)
  · refine Piece.lit_then .mysql b!" ON DUPLICATE KEY UPDATE " [.word b!"ON", .word b!"DUPLICATE", .word b!"KEY",
      .word b!"UPDATE"] _ _ (by decide) ?_
    rw [List.map_map]
    exact readsP_sepBy _ (by decide) bi.nonKeys _ _ fun c _ => piece_values c
  · exact Piece.lit_then .mysql b!" ON DUPLICATE KEY UPDATE " [.word b!"ON", .word b!"DUPLICATE", .word b!"KEY",
      .word b!"UPDATE"] _ _ (by decide) (piece_old _ k)

theorem readSet_new (d : Dialect) (c : Str) (h : PlainName d c)
    (r : List Tok) : readSet d (keywords d) (setToks d (c, .new c) ++ r) = some ((c, .new c), r) := by
  have hc := readCols_eq d [c] (by simp) (by simpa using h) r
  rw [show colToks d [c] = [identTok d c] by rfl] at hc
  unfold readSet setToks
  rw [List.cons_append, ident_eq d c h, Option.bind_some]
  dsimp only
  rw [show ∀ x, Tok.punct '=' :: x ++ r = [Tok.punct '='] ++ (x ++ r) by simp, mark_self, Option.bind_some]
  by_cases hm : d = .mysql
  · simp only [if_pos hm]
    rw [show ∀ x, [Tok.word b!"VALUES", x, identTok d c, .punct ')'] ++ r =
      Tok.word b!"VALUES" :: x :: ([identTok d c] ++ .punct ')' :: r) by simp, kws_one]
    dsimp only
    rw [hc]
    rfl
  · simp only [if_neg hm]
    rw [show [Tok.word b!"EXCLUDED", .punct '.', identTok d c] ++ r =
      Tok.word b!"EXCLUDED" :: ([Tok.punct '.'] ++ (identTok d c :: r)) by simp, kws_one, Option.bind_some, mark_self,
      Option.bind_some, ident_eq d c h]
    rfl

theorem readSet_old (c : Str) (h : PlainName .mysql c) (r : List Tok) :
    readSet .mysql (keywords .mysql) (setToks .mysql (c, .old c) ++ r) = some ((c, .old c), r) := by
  unfold readSet setToks
  rw [List.cons_append, ident_eq .mysql c h, Option.bind_some]
  dsimp only
  rw [show ∀ x, Tok.punct '=' :: x ++ r = [Tok.punct '='] ++ (x ++ r) by simp, mark_self, Option.bind_some, if_pos rfl]
  rw [List.cons_append, List.nil_append, kws_ident .mysql b!"VALUES" c [] r (by decide +kernel)]
  dsimp only
  rw [ident_eq .mysql c h]
  rfl

theorem readSets_eq (d : Dialect) (sets : List (Str × SetVal)) (h0 : sets ≠ [])
    (h : ∀ s ∈ sets, ∀ r, readSet d (keywords d) (setToks d s ++ r) = some (s, r)) :
    whole (many (readSet d (keywords d)) (mark ',') (sepBy [.punct ','] (sets.map (setToks d))).length
      (sepBy [.punct ','] (sets.map (setToks d)))) = some sets := by
  have hl := sepBy_length [.punct ','] (sets.map (setToks d)) (by
    intro x hx
    obtain ⟨e, _, rfl⟩ := List.mem_map.1 hx
    simp [setToks])
  rw [List.length_map] at hl
  have := many_eq (item := readSet d (keywords d)) (sep := mark ',') (us := [.punct ',']) (Ok := fun _ => True)
    (setToks d) (fun _ => trivial) (fun r => mark_self ',' r) [] trivial rfl sets h0 (fun s hs r _ => h s hs r) _ hl
  rw [List.append_nil] at this
  unfold whole
  rw [this]
  rfl

theorem mem_keys_nonKeys (bi : BatchInsert) (c : Str) (h : c ∈ bi.nonKeys) : c ∈ bi.columns :=
  ((BatchInsert.mem_nonKeys bi c).1 h).1

theorem readAction_eq (bi : BatchInsert) (hd : bi.dialect = .sqlite ∨ bi.dialect = .postgres ∨ bi.dialect = .mysql)
    (h : NamesOk bi) (hk : bi.keys ≠ []) :
    readAction bi.dialect (keywords bi.dialect) (actionToks bi.dialect (actionOf bi)) = some (actionOf bi) := by
  obtain ⟨k, ks, e⟩ : ∃ k ks, bi.keys = k :: ks := List.exists_cons_of_ne_nil hk
  have hkeys := h.keys
  have hnew : ∀ s ∈ bi.nonKeys.map fun c => (c, SetVal.new c), ∀ r,
      readSet bi.dialect (keywords bi.dialect) (setToks bi.dialect s ++ r) = some (s, r) := by
    intro s hs r
    obtain ⟨c, hc, rfl⟩ := List.mem_map.1 hs
    exact readSet_new _ c (h.columns c (mem_keys_nonKeys bi c hc)) r
  unfold actionOf
  rw [e] at hkeys ⊢
  dsimp only
  have conflict : ∀ d ts, kws [b!"ON", b!"CONFLICT"] (Tok.word b!"ON" :: Tok.word b!"CONFLICT" :: .punct '(' ::
      (colToks d (k :: ks) ++ .punct ')' :: ts)) = some (.punct '(' :: (colToks d (k :: ks) ++ .punct ')' :: ts)) :=
    fun d ts => kws_self [b!"ON", b!"CONFLICT"] _
  have donothing : kws [b!"DO", b!"NOTHING"] [Tok.word b!"DO", .word b!"NOTHING"] = some [] := by decide
  have doupdate : ∀ ts, kws [b!"DO", b!"NOTHING"] (Tok.word b!"DO" :: .word b!"UPDATE" :: ts) = none := fun ts => by
    simp only [kws]; rfl
  have update : ∀ ts, kws [b!"DO", b!"UPDATE", b!"SET"] (Tok.word b!"DO" :: .word b!"UPDATE" :: .word b!"SET" :: ts) =
      some ts := fun ts => kws_self [b!"DO", b!"UPDATE", b!"SET"] ts
  have dup : ∀ ts, kws [b!"ON", b!"DUPLICATE", b!"KEY", b!"UPDATE"] (Tok.word b!"ON" :: .word b!"DUPLICATE" ::
      .word b!"KEY" :: .word b!"UPDATE" :: ts) = some ts := fun ts =>
    kws_self [b!"ON", b!"DUPLICATE", b!"KEY", b!"UPDATE"] ts
  rcases hd with hd | hd | hd
  all_goals rw [hd] at hkeys hnew ⊢
  all_goals dsimp only
  all_goals by_cases hn : bi.nonKeys ≠ []
  all_goals simp only [if_pos hn, if_neg hn]
  all_goals unfold readAction actionToks
  all_goals dsimp only
  all_goals rw [if_neg (by simp)]
  · rw [if_neg (by decide), if_neg (by decide), conflict, Option.bind_some, readCols_eq _ _ (by simp) hkeys,
      Option.bind_some]
    dsimp only
    rw [doupdate]
    dsimp only
    rw [update, Option.bind_some, readSets_eq _ _ (by simpa using hn) hnew]
    rfl
  · rw [if_neg (by decide), if_neg (by decide), conflict, Option.bind_some, readCols_eq _ _ (by simp) hkeys,
      Option.bind_some]
    dsimp only
    rw [donothing]
    rfl
  · rw [if_neg (by decide), if_neg (by decide), conflict, Option.bind_some, readCols_eq _ _ (by simp) hkeys,
      Option.bind_some]
    dsimp only
    rw [doupdate]
    dsimp only
    rw [update, Option.bind_some, readSets_eq _ _ (by simpa using hn) hnew]
    rfl
  · rw [if_neg (by decide), if_neg (by decide), conflict, Option.bind_some, readCols_eq _ _ (by simp) hkeys,
      Option.bind_some]
    dsimp only
    rw [donothing]
    rfl
  · rw [if_pos rfl, dup, Option.bind_some, readSets_eq _ _ (by simpa using hn) hnew]
    rfl
  · rw [if_pos rfl, dup, Option.bind_some, readSets_eq _ _ (by simp) (by
      intro s hs r
      rw [List.mem_singleton.1 hs]
      exact readSet_old k (hkeys k (by simp)) r)]
    rfl

/-- An INSERT with VALUES. -/
def insertOf (bi : BatchInsert) (n : Nat) : Insert where
  table := nameOf bi
  columns := bi.columns
  overriding := decide (bi.identities ≠ [] ∧ bi.dialect = .postgres)
  rows := rowsP bi.dialect n bi.columns.length
  action := actionOf bi

def overToks (b : Bool) : List Tok :=
  if b then [.word b!"OVERRIDING", .word b!"SYSTEM", .word b!"VALUE"] else []

def insertToks (d : Dialect) (n cols : Nat) (i : Insert) : List Tok :=
  .word b!"INSERT" :: .word b!"INTO" :: (qnameToks d i.table ++ .punct '(' :: (colToks d i.columns ++ .punct ')' ::
    (overToks i.overriding ++ .word b!"VALUES" :: (rowsT d n cols ++ actionToks d i.action))))

/-- Where an INSERT with VALUES is used. -/
def Plain (bi : BatchInsert) : Prop :=
  bi.keys = [] ∨ bi.dialect = .sqlite ∨ bi.dialect = .postgres ∨ bi.dialect = .mysql

theorem readsP_insert (bi : BatchInsert) (hp : Plain bi) (n : Nat) :
    ReadsP bi.dialect (bi.insertStart ++ bi.rowValues n ++ bi.insertEnd)
      (insertToks bi.dialect n bi.columns.length (insertOf bi n)) := by
  have hrows := readsP_valuesList bi.dialect n bi.columns.length
  rw [← rowValues_eq bi n] at hrows
  have hend : ReadsP bi.dialect (bi.rowValues n ++ bi.insertEnd)
      (rowsT bi.dialect n bi.columns.length ++ actionToks bi.dialect (actionOf bi)) := by
    by_cases hk : bi.keys = []
    · have e1 : bi.insertEnd = [] := by simp [BatchInsert.insertEnd, hk]
      have e2 : actionOf bi = .refuse := by simp [actionOf, hk]
      rw [e1, e2, actionToks, List.append_nil, List.append_nil]
      exact hrows
    · exact hrows.piece (piece_insertEnd bi (hp.resolve_left hk) hk)
  have hstart : ∀ s us, IsGap (b!")" ++ s) (.punct ')' :: us) →
      ReadsP bi.dialect (b!"INSERT INTO " ++ bi.tableName ++ b!" (" ++ bi.columnNames ++ b!")" ++ s ++
        (bi.rowValues n ++ bi.insertEnd)) (.word b!"INSERT" :: .word b!"INTO" :: (qnameToks bi.dialect (nameOf bi) ++
          .punct '(' :: (colToks bi.dialect bi.columns ++ .punct ')' :: (us ++ (rowsT bi.dialect n bi.columns.length ++
            actionToks bi.dialect (actionOf bi)))))) := by
    intro s us hs
    have h1 := Piece.lit_then bi.dialect _ _ _ _ hs hend
    have h2 := (readsP_colNames bi.dialect bi.columns).piece h1
    have h3 := (readsP_table bi).piece (Piece.lit_then bi.dialect b!" (" [.punct '('] _ _ (by decide) h2)
    have h4 := (reads_lit bi.dialect b!"INSERT INTO " (by decide) (by decide)).append_p h3
    rw [show stoks b!"INSERT INTO " = [.word b!"INSERT", .word b!"INTO"] by decide] at h4
    simpa [List.append_assoc, BatchInsert.columnNames] using h4
  unfold BatchInsert.insertStart insertToks insertOf
  dsimp only
  rw [List.append_assoc _ (bi.rowValues n)]
  by_cases ho : bi.identities ≠ [] ∧ bi.dialect = .postgres
  · rw [if_pos ho, decide_eq_true ho]
    exact hstart b!" OVERRIDING SYSTEM VALUE VALUES "
      [.word b!"OVERRIDING", .word b!"SYSTEM", .word b!"VALUE", .word b!"VALUES"] (by decide)
  · have hs : ¬ (bi.keys ≠ [] ∧ bi.dialect = .sqlserver) := by
      rintro ⟨h1, h2⟩
      rcases hp.resolve_left h1 with h | h | h <;> rw [h] at h2 <;> cases h2
    rw [if_neg ho, if_neg hs, decide_eq_false ho]
    exact hstart b!" VALUES " [.word b!"VALUES"] (by decide)

theorem mark_actionToks (d : Dialect) (a : Action) : mark ',' (actionToks d a) = none := by
  unfold actionToks
  cases a with
  | refuse => rfl
  | nothing ks => simp [mark]
  | set ks sets => cases ks <;> simp [mark]

theorem readInsert_eq (bi : BatchInsert) (hp : Plain bi) (h : NamesOk bi) (n : Nat) (hn : n ≠ 0) :
    readInsert bi.dialect (keywords bi.dialect) (insertToks bi.dialect n bi.columns.length (insertOf bi n)) =
      some (insertOf bi n) := by
  have hact : readAction bi.dialect (keywords bi.dialect) (actionToks bi.dialect (actionOf bi)) = some (actionOf bi) := by
    by_cases hk : bi.keys = []
    · simp [actionOf, hk, actionToks, readAction]
    · exact readAction_eq bi (hp.resolve_left hk) h hk
  have hopt : ∀ (b : Bool) r, optKw [b!"OVERRIDING", b!"SYSTEM", b!"VALUE"] (overToks b ++ .word b!"VALUES" :: r) =
      (b, .word b!"VALUES" :: r) := by
    intro b r
    cases b
    · have : kws [b!"OVERRIDING", b!"SYSTEM", b!"VALUE"] (Tok.word b!"VALUES" :: r) = none := by
        simp only [kws]; rfl
      simp only [optKw, overToks, Bool.false_eq_true, if_false, List.nil_append, this]
    · have := kws_self [b!"OVERRIDING", b!"SYSTEM", b!"VALUE"] (.word b!"VALUES" :: r)
      simp only [List.map_cons, List.map_nil] at this
      simp only [optKw, overToks, if_true]
      rw [this]
  unfold readInsert insertToks insertOf
  dsimp only
  have hi : ∀ r, kws [b!"INSERT", b!"INTO"] (Tok.word b!"INSERT" :: .word b!"INTO" :: r) = some r := fun r =>
    kws_self [b!"INSERT", b!"INTO"] r
  rw [hi, Option.bind_some, readName_qname _ _ h.name.schema h.name.name _ (by simp), Option.bind_some]
  dsimp only
  rw [readCols_eq _ _ h.some h.columns, Option.bind_some]
  dsimp only
  rw [hopt]
  dsimp only
  rw [kws_one, Option.bind_some, if_neg (by simp), readRows_eq _ _ _ hn (by simpa using h.some) _ (mark_actionToks _ _),
    Option.bind_some]
  dsimp only
  rw [hact]
  rfl

/-- The text of an INSERT with VALUES is read. -/
theorem insert_stmt (bi : BatchInsert) (hp : Plain bi) (h : NamesOk bi) (n : Nat) (hn : n ≠ 0) :
    stmtOf bi.dialect (keywords bi.dialect) (bi.insertStart ++ bi.rowValues n ++ bi.insertEnd) =
      some (.insert (insertOf bi n)) := by
  unfold stmtOf
  rw [lex_of_readsP (readsP_insert bi hp n), Option.bind_some]
  unfold readStmt
  rw [readInsert_eq bi hp h n hn]

/-! ## SQL Server -/

/-- `(VALUES ...) AS tmp_ (columns)` -/
def valuesOf (bi : BatchInsert) (n : Nat) : Values := ⟨rowsP bi.dialect n bi.columns.length, b!"tmp_", bi.columns⟩

def valuesToks (bi : BatchInsert) (n : Nat) : List Tok :=
  .punct '(' :: (.word b!"VALUES" :: rowsT bi.dialect n bi.columns.length ++ .punct ')' :: .word b!"AS" ::
    .word b!"tmp_" :: .punct '(' :: (colToks bi.dialect bi.columns ++ [.punct ')']))

theorem readValues_eq (bi : BatchInsert) (h : NamesOk bi) (n : Nat) (hn : n ≠ 0) (r : List Tok) :
    readValues bi.dialect (keywords bi.dialect) (valuesToks bi n ++ r) = some (valuesOf bi n, r) := by
  have hb := inBrackets_eq (.word b!"VALUES" :: rowsT bi.dialect n bi.columns.length) (.word b!"AS" ::
    .word b!"tmp_" :: .punct '(' :: (colToks bi.dialect bi.columns ++ .punct ')' :: r))
    (bal_cons_word _ _ (bal_rowsT _ _ _))
  have e : valuesToks bi n ++ r = .punct '(' :: ((.word b!"VALUES" :: rowsT bi.dialect n bi.columns.length) ++
      .punct ')' :: (.word b!"AS" :: .word b!"tmp_" :: .punct '(' :: (colToks bi.dialect bi.columns ++ .punct ')' :: r))) := by
    simp [valuesToks, List.append_assoc]
  have hr := readRows_eq bi.dialect n bi.columns.length hn (by simpa using h.some) [] rfl
  rw [List.append_nil] at hr
  unfold readValues
  rw [e, hb, Option.bind_some]
  dsimp only
  rw [kws_one, Option.bind_some, hr]
  unfold whole
  rw [Option.bind_some, if_pos rfl, Option.bind_some, kws_one, Option.bind_some, ident_fixed _ _ tmp_fixed,
    Option.bind_some]
  dsimp only
  rw [readCols_eq _ _ h.some h.columns]
  rfl

/-- Text that ends with `(VALUES ` before the rows, and what follows. -/
theorem piece_tmp (bi : BatchInsert) (s : Str) (us : List Tok) (hs : IsGap s us) (n : Nat) (t : Str) (ts : List Tok)
    (gap : Str) (gs : List Tok) (hg : IsGap (b!")" ++ gap) (.punct ')' :: gs)) (ht : ReadsP bi.dialect t ts) :
    Piece bi.dialect (s ++ (bi.rowValues n ++ (b!") AS tmp_ (" ++ (bi.columnNames ++ (b!")" ++ gap ++ t)))))
      (us ++ (rowsT bi.dialect n bi.columns.length ++ (.punct ')' :: .word b!"AS" :: .word b!"tmp_" :: .punct '(' ::
        (colToks bi.dialect bi.columns ++ .punct ')' :: (gs ++ ts))))) := by
  have hrows := readsP_valuesList bi.dialect n bi.columns.length
  rw [← rowValues_eq bi n] at hrows
  have h1 := (readsP_colNames bi.dialect bi.columns).piece (Piece.lit_then bi.dialect _ _ _ _ hg ht)
  have h2 := hrows.piece (Piece.lit_then bi.dialect b!") AS tmp_ (" [.punct ')', .word b!"AS", .word b!"tmp_",
    .punct '('] _ _ (by decide) h1)
  exact Piece.lit_then bi.dialect s us _ _ hs h2

/-- The UPDATE. -/
def updateOf (bi : BatchInsert) (n : Nat) : UpdateFrom where
  table := nameOf bi
  sets := bi.updateColumns.map fun c => (c, ⟨tmp, c⟩)
  first := nameOf bi
  values := valuesOf bi n
  on := equations bi

def assignToks (d : Dialect) (s : Str × SelectSpec.Ref) : List Tok :=
  identTok d s.1 :: .punct '=' :: SelectSpec.refToks d s.2

def updateToks (bi : BatchInsert) (n : Nat) : List Tok :=
  .word b!"UPDATE" :: (qnameToks bi.dialect (nameOf bi) ++ .word b!"WITH" :: .punct '(' :: ([.word b!"UPDLOCK",
    .punct ',', .word b!"SERIALIZABLE"] ++ .punct ')' :: .word b!"SET" :: (sepBy [.punct ','] ((updateOf bi n).sets.map
      (assignToks bi.dialect)) ++ .word b!"FROM" :: (qnameToks bi.dialect (nameOf bi) ++ .word b!"JOIN" ::
        (valuesToks bi n ++ .word b!"ON" :: equationToks bi)))))

theorem readsP_update (bi : BatchInsert) (n : Nat) :
    ReadsP bi.dialect (bi.updateStart ++ bi.rowValues n ++ bi.updateEnd) (updateToks bi n) := by
  have h1 := piece_tmp bi b!" JOIN (VALUES " [.word b!"JOIN", .punct '(', .word b!"VALUES"] (by decide) n _ _
    b!" ON " [.word b!"ON"] (by decide) (readsP_keysMatch bi)
  have h2 := Piece.lit_then bi.dialect b!" FROM " [.word b!"FROM"] _ _ (by decide) ((readsP_table bi).piece h1)
  have hsets : ReadsP bi.dialect (join b!", " (bi.updateColumns.map fun c =>
      quoteIdentifier bi.dialect c ++ b!" = tmp_." ++ quoteIdentifier bi.dialect c))
      (sepBy [.punct ','] ((updateOf bi n).sets.map (assignToks bi.dialect))) := by
    unfold updateOf
    rw [List.map_map]
    refine readsP_sepBy _ (by decide) bi.updateColumns _ _ fun c _ => ?_
    have h := (readsP_ident bi.dialect c).piece (Piece.lit_then bi.dialect b!" = tmp_."
      [.punct '=', .word b!"tmp_", .punct '.'] _ _ (by decide) (readsP_ident bi.dialect c))
    simpa [assignToks, SelectSpec.refToks, tmp, qnameToks, tmp_fixed.tok bi.dialect, List.append_assoc] using h
  have h3 := Piece.lit_then bi.dialect b!" WITH (UPDLOCK, SERIALIZABLE) SET " [.word b!"WITH", .punct '(',
    .word b!"UPDLOCK", .punct ',', .word b!"SERIALIZABLE", .punct ')', .word b!"SET"] _ _ (by decide) (hsets.piece h2)
  have h4 := (reads_lit bi.dialect b!"UPDATE " (by decide) (by decide)).append_p ((readsP_table bi).piece h3)
  rw [show stoks b!"UPDATE " = [.word b!"UPDATE"] by decide] at h4
  simpa [List.append_assoc, BatchInsert.updateStart, BatchInsert.updateEnd, updateToks, valuesToks] using h4

theorem mem_updateColumns (bi : BatchInsert) (c : Str) (h : c ∈ bi.updateColumns) :
    c ∈ bi.columns ∧ c ∉ bi.keys := by
  have := List.mem_filter.1 h
  simp at this
  exact ⟨this.1, this.2.1⟩

theorem readUpdate_eq (bi : BatchInsert) (h : NamesOk bi) (hk : bi.keys ≠ []) (hu : bi.updateColumns ≠ []) (n : Nat)
    (hn : n ≠ 0) : readUpdate bi.dialect (keywords bi.dialect) (updateToks bi n) = some (updateOf bi n) := by
  unfold readUpdate updateToks
  rw [kws_one, Option.bind_some, readName_qname _ _ h.name.schema h.name.name _ (by simp), Option.bind_some]
  dsimp only
  rw [kws_one, Option.bind_some, inBrackets_eq _ _ (by decide), Option.bind_some]
  dsimp only
  rw [kws_one, Option.bind_some]
  have hl := sepBy_length [.punct ','] ((updateOf bi n).sets.map (assignToks bi.dialect)) (by
    intro x hx
    obtain ⟨e, _, rfl⟩ := List.mem_map.1 hx
    simp [assignToks])
  rw [List.length_map] at hl
  have hm := fun rest (hr : NoDot rest) (hc : mark ',' rest = none) m hm =>
    many_eq (item := readAssign bi.dialect (keywords bi.dialect)) (sep := mark ',') (us := [.punct ','])
      (Ok := NoDot) (assignToks bi.dialect) (fun r => noDot_punct ',' (by decide) r) (fun r => mark_self ',' r) rest hr hc
      (updateOf bi n).sets (by simpa [updateOf] using hu) (fun s hs r hr => by
        obtain ⟨c, hc, rfl⟩ := List.mem_map.1 hs
        have hp := h.columns c (mem_updateColumns bi c hc).1
        unfold readAssign assignToks
        rw [List.cons_append, ident_eq _ _ hp, Option.bind_some]
        dsimp only
        rw [List.cons_append, show ∀ x, Tok.punct '=' :: x = [Tok.punct '='] ++ x by simp, mark_self, Option.bind_some,
          readRef_eq _ _ ⟨⟨by simp [tmp], tmp_fixed.plain _⟩, hp⟩ r hr]
        rfl) m hm
  rw [hm _ (noDot_word _ _) (by simp [mark]) _ (by simp only [List.length_append]; omega), Option.bind_some]
  dsimp only
  rw [kws_one, Option.bind_some, readName_qname _ _ h.name.schema h.name.name _ (by simp), Option.bind_some]
  dsimp only
  rw [kws_one, Option.bind_some, readValues_eq bi h n hn, Option.bind_some]
  dsimp only
  rw [kws_one, Option.bind_some, readEquations_eq bi h hk]
  rfl

/-- The text of the UPDATE is read. -/
theorem update_stmt (bi : BatchInsert) (hd : bi.dialect = .sqlserver) (h : NamesOk bi) (hk : bi.keys ≠ [])
    (hu : bi.updateColumns ≠ []) (n : Nat) (hn : n ≠ 0) :
    stmtOf bi.dialect (keywords bi.dialect) (bi.updateStart ++ bi.rowValues n ++ bi.updateEnd) =
      some (.update (updateOf bi n)) := by
  unfold stmtOf
  rw [lex_of_readsP (readsP_update bi n), Option.bind_some]
  unfold readStmt
  have hi : readInsert bi.dialect (keywords bi.dialect) (updateToks bi n) = none := by
    have : ∀ r, kws [b!"INSERT", b!"INTO"] (Tok.word b!"UPDATE" :: r) = none := fun r => by
      simp only [kws]; rfl
    unfold readInsert updateToks
    rw [this]
    rfl
  rw [hi, if_neg (by simp [hd]), readUpdate_eq bi h hk hu n hn]

/-- The INSERT with SELECT. -/
def missingOf (bi : BatchInsert) (n : Nat) : InsertMissing where
  table := nameOf bi
  columns := bi.columns
  selected := bi.columns
  values := valuesOf bi n
  inner := nameOf bi
  on := equations bi

def missingToks (bi : BatchInsert) (n : Nat) : List Tok :=
  .word b!"INSERT" :: .word b!"INTO" :: (qnameToks bi.dialect (nameOf bi) ++ .punct '(' ::
    (colToks bi.dialect bi.columns ++ .punct ')' :: .word b!"SELECT" :: (colToks bi.dialect bi.columns ++
      .word b!"FROM" :: (valuesToks bi n ++ .word b!"WHERE" :: .word b!"NOT" :: .word b!"EXISTS" :: .punct '(' ::
        ((.word b!"SELECT" :: .word b!"1" :: .word b!"FROM" :: (qnameToks bi.dialect (nameOf bi) ++
          .word b!"WHERE" :: equationToks bi)) ++ [.punct ')'])))))

theorem readsP_missing (bi : BatchInsert) (hd : bi.dialect = .sqlserver) (hk : bi.keys ≠ []) (n : Nat) :
    ReadsP bi.dialect (bi.insertStart ++ bi.rowValues n ++ bi.insertEnd) (missingToks bi n) := by
  have h0 := (readsP_table bi).piece (Piece.lit_then bi.dialect b!" WHERE " [.word b!"WHERE"] _ _ (by decide)
    ((readsP_keysMatch bi).lit (t := b!")") (us := [.punct ')']) (by decide)).readsP)
  have h1 := piece_tmp bi b!" FROM (VALUES " [.word b!"FROM", .punct '(', .word b!"VALUES"] (by decide) n _ _
    b!" WHERE NOT EXISTS (SELECT 1 FROM " [.word b!"WHERE", .word b!"NOT", .word b!"EXISTS", .punct '(',
      .word b!"SELECT", .word b!"1", .word b!"FROM"] (by decide) h0
  have h2 := (readsP_colNames bi.dialect bi.columns).piece (Piece.lit_then bi.dialect b!") SELECT "
    [.punct ')', .word b!"SELECT"] _ _ (by decide) ((readsP_colNames bi.dialect bi.columns).piece h1))
  have h3 := (readsP_table bi).piece (Piece.lit_then bi.dialect b!" (" [.punct '('] _ _ (by decide) h2)
  have h4 := (reads_lit bi.dialect b!"INSERT INTO " (by decide) (by decide)).append_p h3
  rw [show stoks b!"INSERT INTO " = [.word b!"INSERT", .word b!"INTO"] by decide] at h4
  obtain ⟨k, ks, e⟩ : ∃ k ks, bi.keys = k :: ks := List.exists_cons_of_ne_nil hk
  have es : bi.insertStart = b!"INSERT INTO " ++ bi.tableName ++ b!" (" ++ bi.columnNames ++ b!")" ++
      (b!" SELECT " ++ bi.columnNames ++ b!" FROM (VALUES ") := by
    unfold BatchInsert.insertStart
    rw [if_neg (by simp [hd]), if_pos ⟨hk, hd⟩]
  have ee : bi.insertEnd = b!") AS tmp_ (" ++ bi.columnNames ++ b!") WHERE NOT EXISTS (SELECT 1 FROM " ++ bi.tableName ++
      b!" WHERE " ++ bi.keysMatch ++ b!")" := by
    unfold BatchInsert.insertEnd
    rw [e, hd]
  rw [es, ee]
  simpa [List.append_assoc, BatchInsert.columnNames, missingToks, valuesToks] using h4

theorem readMissing_eq (bi : BatchInsert) (h : NamesOk bi) (hk : bi.keys ≠ []) (n : Nat) (hn : n ≠ 0) :
    readMissing bi.dialect (keywords bi.dialect) (missingToks bi n) = some (missingOf bi n) := by
  unfold readMissing missingToks
  have hi : ∀ r, kws [b!"INSERT", b!"INTO"] (Tok.word b!"INSERT" :: .word b!"INTO" :: r) = some r := fun r =>
    kws_self [b!"INSERT", b!"INTO"] r
  have hw : ∀ r, kws [b!"WHERE", b!"NOT", b!"EXISTS"] (Tok.word b!"WHERE" :: .word b!"NOT" :: .word b!"EXISTS" :: r) =
      some r := fun r => kws_self [b!"WHERE", b!"NOT", b!"EXISTS"] r
  have hs : ∀ r, kws [b!"SELECT", b!"1", b!"FROM"] (Tok.word b!"SELECT" :: .word b!"1" :: .word b!"FROM" :: r) =
      some r := fun r => kws_self [b!"SELECT", b!"1", b!"FROM"] r
  rw [hi, Option.bind_some, readName_qname _ _ h.name.schema h.name.name _ (by simp), Option.bind_some]
  dsimp only
  rw [readCols_eq _ _ h.some h.columns, Option.bind_some]
  dsimp only
  rw [kws_one, Option.bind_some]
  have ec : colToks bi.dialect bi.columns = sepBy [.punct ','] (bi.columns.map fun c => [identTok bi.dialect c]) :=
    commaSep_eq _
  have hl := sepBy_length [.punct ','] (bi.columns.map fun c => [identTok bi.dialect c]) (by simp)
  rw [List.length_map] at hl
  have hm := fun rest (hc : mark ',' rest = none) m hm =>
    many_eq (item := ident bi.dialect (keywords bi.dialect)) (sep := mark ',') (us := [.punct ','])
      (Ok := fun _ => True) (fun c => [identTok bi.dialect c]) (fun _ => trivial) (fun r => mark_self ',' r) rest trivial hc
      bi.columns h.some (fun c hc r _ => ident_eq _ c (h.columns c hc) r) m hm
  rw [ec, hm _ (by simp [mark]) _ (by simp only [List.length_append]; omega), Option.bind_some]
  dsimp only
  rw [kws_one, Option.bind_some, readValues_eq bi h n hn, Option.bind_some]
  dsimp only
  have hb := inBrackets_eq (.word b!"SELECT" :: .word b!"1" :: .word b!"FROM" :: (qnameToks bi.dialect (nameOf bi) ++
    .word b!"WHERE" :: equationToks bi)) [] (bal_cons_word _ _ (bal_cons_word _ _ (bal_cons_word _ _
      (bal_append0 _ _ (bal_qname _ _) (bal_cons_word _ _ (bal_equations bi))))))
  rw [hw, Option.bind_some, hb, Option.bind_some, if_neg (by simp)]
  dsimp only
  rw [hs, Option.bind_some, readName_qname _ _ h.name.schema h.name.name _ (by simp), Option.bind_some]
  dsimp only
  rw [kws_one, Option.bind_some, readEquations_eq bi h hk]
  rfl

/-- The text of the INSERT with SELECT is read. -/
theorem missing_stmt (bi : BatchInsert) (hd : bi.dialect = .sqlserver) (h : NamesOk bi) (hk : bi.keys ≠ [])
    (n : Nat) (hn : n ≠ 0) :
    stmtOf bi.dialect (keywords bi.dialect) (bi.insertStart ++ bi.rowValues n ++ bi.insertEnd) =
      some (.missing (missingOf bi n)) := by
  unfold stmtOf
  rw [lex_of_readsP (readsP_missing bi hd hk n), Option.bind_some]
  unfold readStmt
  have hi : readInsert bi.dialect (keywords bi.dialect) (missingToks bi n) = none := by
    have hi : ∀ r, kws [b!"INSERT", b!"INTO"] (Tok.word b!"INSERT" :: .word b!"INTO" :: r) = some r := fun r =>
      kws_self [b!"INSERT", b!"INTO"] r
    have ho : ∀ r, optKw [b!"OVERRIDING", b!"SYSTEM", b!"VALUE"] (Tok.word b!"SELECT" :: r) =
        (false, Tok.word b!"SELECT" :: r) := fun r => by
      have : kws [b!"OVERRIDING", b!"SYSTEM", b!"VALUE"] (Tok.word b!"SELECT" :: r) = none := by
        simp only [kws]; rfl
      simp only [optKw, this]
    have hv : ∀ r, kws [b!"VALUES"] (Tok.word b!"SELECT" :: r) = none := fun r => by
      simp only [kws]; rfl
    unfold readInsert missingToks
    rw [hi, Option.bind_some, readName_qname _ _ h.name.schema h.name.name _ (by simp), Option.bind_some]
    dsimp only
    rw [readCols_eq _ _ h.some h.columns, Option.bind_some]
    dsimp only
    rw [ho]
    dsimp only
    rw [hv]
    rfl
  have hu : readUpdate bi.dialect (keywords bi.dialect) (missingToks bi n) = none := by
    have : ∀ r, kws [b!"UPDATE"] (Tok.word b!"INSERT" :: r) = none := fun r => by
      simp only [kws]; rfl
    unfold readUpdate missingToks
    rw [this]
    rfl
  rw [hi, if_neg (by simp [hd]), hu, readMissing_eq bi h hk n hn]
  rfl

end InsertSpec
