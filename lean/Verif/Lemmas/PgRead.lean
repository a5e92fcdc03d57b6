import Verif.Spec.PgText
import Verif.Lemmas.DdlStmt

/-! Lemmas about reading the statements of Verif.Spec.PgText. -/

namespace PgText
open Go SqlSpec Sqddl DdlText
open WipeSpec (kws readName)

theorem kws_two_one (a b : Str) (t : Tok) : kws [a, b] [t] = none := by
  simp [kws]

theorem readAct_dropConstraintIf (n : Str) (h : PlainName .postgres n) :
    readAct (keywords .postgres) [.word b!"DROP", .word b!"CONSTRAINT", .word b!"IF",
      .word b!"EXISTS", identTok .postgres n] = some (.dropConstraint true n) := by
  simp [readAct, kws_word, kws_end, readOne_ident .postgres n h]

theorem readAct_dropConstraint (n : Str) (h : PlainName .postgres n) :
    readAct (keywords .postgres) [.word b!"DROP", .word b!"CONSTRAINT", identTok .postgres n] =
      some (.dropConstraint false n) := by
  simp [readAct, kws_word, kws_end, readOne_ident .postgres n h, kws_two_one]

theorem readAct_dropColumn (n : Str) (h : PlainName .postgres n) :
    readAct (keywords .postgres) [.word b!"DROP", .word b!"COLUMN", .word b!"IF",
      .word b!"EXISTS", identTok .postgres n] = some (.dropColumn n) := by
  simp [readAct, kws_word, kws_end, readOne_ident .postgres n h, toLower, lowerC]

theorem readAct_addColumn (c : Col) (ty : List Tok) (h : c.Ok .postgres ty) :
    readAct (keywords .postgres) (.word b!"ADD" :: .word b!"COLUMN" ::
      identTok .postgres c.name :: (ty ++ colTail .postgres c)) = some (.addColumn c) := by
  simp [readAct, kws_word, kws_end, readCol_eq .postgres c ty h, toLower, lowerC]

theorem readAct_validate (n : Str) (h : PlainName .postgres n) :
    readAct (keywords .postgres) [.word b!"VALIDATE", .word b!"CONSTRAINT", identTok .postgres n] =
      some (.validate n) := by
  simp [readAct, kws_word, kws_end, readOne_ident .postgres n h, toLower, lowerC]

/-- A constraint with its columns is not one that is made of an index. -/
theorem readKeyUsing_con (c : Con) (r : List Tok) :
    readKeyUsing (keywords .postgres) (conToks .postgres c ++ r) = none := by
  have two : ∀ k (q : List Tok), kws [b!"PRIMARY", b!"KEY", b!"USING", b!"INDEX"]
      (kindToks .postgres k ++ q) = none ∧ kws [b!"UNIQUE", b!"USING", b!"INDEX"]
      (kindToks .postgres k ++ q) = none := by
    intro k q
    cases k <;> simp [kindToks, kws_word, toLower, lowerC, groupToks, kws, isKw]
  unfold readKeyUsing conToks
  cases c.name with
  | none =>
    simp only [Option.toList_none, List.flatMap_nil, List.nil_append, List.append_assoc]
    have : kws [b!"CONSTRAINT"] (kindToks .postgres c.kind ++
        (optWords c.deferrable [b!"DEFERRABLE"] ++
        (optWords c.initiallyDeferred [b!"INITIALLY", b!"DEFERRED"] ++ r))) = none := by
      cases c.kind <;> simp [kindToks, kws_word, toLower, lowerC]
    rw [this]; rfl
  | some n =>
    simp only [Option.toList_some, List.flatMap_cons, List.flatMap_nil, List.append_nil,
      List.cons_append, List.nil_append, List.append_assoc, kws_word, if_true, kws_end,
      Option.bind_some, List.head?_cons, List.tail_cons]
    rw [(two _ _).1, (two _ _).2]
    cases nameOf .postgres (keywords .postgres) (identTok .postgres n) <;> rfl

theorem kws_column_con (c : Con) (r : List Tok) : kws [b!"COLUMN"] (conToks .postgres c ++ r) = none := by
  unfold conToks
  cases c.name with
  | some n => simp [kws_word, toLower, lowerC]
  | none => cases c.kind <;> simp [kindToks, kws_word, toLower, lowerC]

theorem readAct_addConstraint (c : Con) (h : c.Ok .postgres) (v : Bool) :
    readAct (keywords .postgres) (.word b!"ADD" :: (conToks .postgres c ++
      optWords v [b!"NOT", b!"VALID"])) =
      some (.addConstraint { c with kind := foldKind c.kind, notValid := v }) := by
  have e := readCon_valid .postgres c h v
  simp [readAct, kws_word, kws_end, toLower, lowerC, kws_column_con, readAdd, readKeyUsing_con, e]

theorem readAct_addKeyUsing (n i : Str) (hn : PlainName .postgres n) (hi : PlainName .postgres i)
    (p : Bool) :
    readAct (keywords .postgres) (.word b!"ADD" :: .word b!"CONSTRAINT" :: identTok .postgres n ::
      ((if p then [.word b!"PRIMARY", .word b!"KEY"] else [.word b!"UNIQUE"]) ++
      [.word b!"USING", .word b!"INDEX", identTok .postgres i])) = some (.addKeyUsing n p i) := by
  cases p <;> simp [readAct, kws_word, kws_end, toLower, lowerC, readAdd, readKeyUsing,
    nameOf_identTok .postgres n hn, readOne_ident .postgres i hi]

theorem readAct_alterConstraint (n : Str) (hn : PlainName .postgres n) (a b : Bool) :
    readAct (keywords .postgres) (.word b!"ALTER" :: .word b!"CONSTRAINT" :: identTok .postgres n ::
      ((if a then [.word b!"DEFERRABLE"] else [.word b!"NOT", .word b!"DEFERRABLE"]) ++
      optWords b [b!"INITIALLY", b!"DEFERRED"])) = some (.alterConstraint n a b) := by
  cases a <;> cases b <;> simp [readAct, kws_word, kws_end, toLower, lowerC, named, readDefer, optWords,
    optKw, kws, isKw, nameOf_identTok .postgres n hn]

/-! ## Columns -/

/-- What follows the name of a column is read by `readColAct`. -/
theorem readAct_column (t : Tok) (n : Str) (ht : nameOf .postgres (keywords .postgres) t = some n)
    (r : List Tok) :
    readAct (keywords .postgres) (.word b!"ALTER" :: .word b!"COLUMN" :: t :: r) = readColAct n r := by
  simp [readAct, kws_word, kws_end, toLower, lowerC, named, ht]

theorem readColAct_type (n : Str) (ty : List Tok) (hf : flat 0 ty) (hq : quiet [b!"COLLATE"] 0 ty)
    (o : Option Tok) :
    readColAct n (.word b!"TYPE" :: (ty ++ o.toList.flatMap fun t => [.word b!"COLLATE", t])) =
      some (.setType n (ty.map foldTok) o) := by
  have e : untilWord [b!"COLLATE"] 0 (ty ++ o.toList.flatMap fun t => [.word b!"COLLATE", t]) =
      (ty, o.toList.flatMap fun t => [.word b!"COLLATE", t]) := by
    apply untilWord_eq _ _ _ _ hf hq
    cases o with
    | none => exact Or.inl rfl
    | some t => exact Or.inr ⟨_, _, rfl, by decide⟩
  have e2 : readCollation (o.toList.flatMap fun t => [.word b!"COLLATE", t]) = (o, []) := by
    cases o <;> simp [readCollation, kws, isKw]
  unfold readColAct
  simp only [kws_word, if_true, kws_end, e, e2]

theorem readColAct_dropDefault (n : Str) :
    readColAct n [.word b!"DROP", .word b!"DEFAULT"] = some (.dropDefault n) := by
  simp [readColAct, kws_word, kws_end, toLower, lowerC]

theorem readColAct_setDefault (n : Str) (e : List Tok) (h : e ≠ []) :
    readColAct n (.word b!"SET" :: .word b!"DEFAULT" :: e) = some (.setDefault n e) := by
  simp [readColAct, kws_word, kws_end, toLower, lowerC, h]

theorem readColAct_dropNotNull (n : Str) :
    readColAct n [.word b!"DROP", .word b!"NOT", .word b!"NULL"] = some (.dropNotNull n) := by
  simp [readColAct, kws_word, kws_end, toLower, lowerC]

theorem readColAct_setNotNull (n : Str) :
    readColAct n [.word b!"SET", .word b!"NOT", .word b!"NULL"] = some (.setNotNull n) := by
  simp [readColAct, kws_word, kws_end, toLower, lowerC]

theorem readColAct_dropIdentity (n : Str) :
    readColAct n [.word b!"DROP", .word b!"IDENTITY"] = some (.dropIdentity n) := by
  simp [readColAct, kws_word, kws_end, toLower, lowerC]

theorem readColAct_addIdentity (n : Str) (i : List Tok) (h : i ∈ identities .postgres) :
    readColAct n (.word b!"ADD" :: i) = some (.addIdentity n i) := by
  have e : readIdentity .postgres i = (some i, []) := by
    simp only [identities, List.mem_cons, List.not_mem_nil, or_false] at h
    rcases h with rfl | rfl <;> simp [readIdentity, kws, isKw, toLower, lowerC]
  simp [readColAct, kws_word, kws_end, toLower, lowerC, e]

/-! ## Statements -/

/-- What is not an ALTER TABLE is read as in Verif.Spec.DdlText. -/
theorem readStmt_base (ts : List Tok) (st : DdlText.Stmt)
    (h : DdlText.readStmt .postgres (keywords .postgres) ts = some st)
    (ha : ∀ n as, st ≠ .alterTable n as) :
    readStmt (keywords .postgres) ts = some (.base st) := by
  have e : kws [b!"ALTER", b!"TABLE"] ts = none := by
    cases e : kws [b!"ALTER", b!"TABLE"] ts with
    | none => rfl
    | some r =>
      exfalso
      match ts with
      | [] => simp [kws] at e
      | .quoted _ :: _ | .str _ :: _ | .punct _ :: _ => simp [kws, isKw] at e
      | .word w :: q =>
        rw [kws_word] at e
        split at e
        · rename_i hw
          have hw' : toLower w = b!"alter" := hw
          have hk : ∀ k ks, toLower k ≠ b!"alter" → kws (k :: ks) (.word w :: q) = none := by
            intro k ks hk
            rw [kws_word, if_neg]
            rw [hw']; exact fun h => hk h.symm
          unfold DdlText.readStmt at h
          rw [hk _ _ (by decide), hk _ _ (by decide), hk _ _ (by decide), hk _ _ (by decide)] at h
          simp only [kws_word, hw, if_true, e] at h
          unfold readAlterTable at h
          simp only [Option.bind_eq_some_iff, Option.map_eq_some_iff] at h
          obtain ⟨p, _, xs, _, hx⟩ := h
          exact ha _ _ hx.symm
        · cases e
  unfold readStmt
  rw [e]
  simp only [h]

theorem readStmt_alter (n : Name) (hs : ∀ s ∈ n.1, PlainName .postgres s)
    (hn : PlainName .postgres n.2) (ts : List Tok) (a : Act) (hf : flat 0 ts)
    (ha : readAct (keywords .postgres) ts = some a) (hd : ts.head? ≠ some (.punct '.')) :
    readStmt (keywords .postgres) (.word b!"ALTER" :: .word b!"TABLE" :: (qnameToks .postgres n ++ ts)) =
      some (.alter n [a]) := by
  have e1 := readName_qname .postgres n hs hn ts hd
  simp [readStmt, readSpecial, kws_word, kws_end, toLower, lowerC, e1, splitTop_one 0 ts hf, ha]

theorem readStmt_dropIndex (n : Name) (hs : ∀ s ∈ n.1, PlainName .postgres s)
    (hn : PlainName .postgres n.2) :
    readStmt (keywords .postgres) (.word b!"DROP" :: .word b!"INDEX" :: .word b!"IF" ::
      .word b!"EXISTS" :: qnameToks .postgres n) = some (.dropIndex n) := by
  have e1 := readName_qname .postgres n hs hn [] (by simp)
  simp only [List.append_nil] at e1
  simp [readStmt, readSpecial, DdlText.readStmt, kws_word, kws_end, toLower, lowerC, e1]

theorem readStmt_dropSchemaCascade (n : Str) (hn : PlainName .postgres n) :
    readStmt (keywords .postgres) [.word b!"DROP", .word b!"SCHEMA", .word b!"IF",
      .word b!"EXISTS", identTok .postgres n, .word b!"CASCADE"] = some (.dropSchemaCascade n) := by
  simp [readStmt, readSpecial, DdlText.readStmt, kws_word, kws_end, toLower, lowerC, readOne,
    nameOf_identTok .postgres n hn]

end PgText
