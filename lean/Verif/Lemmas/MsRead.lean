import Verif.Spec.MsText
import Verif.Lemmas.DdlStmt

/-! Lemmas about reading the statements of Verif.Spec.MsText. -/

namespace MsText
open Go SqlSpec Sqddl DdlText
open WipeSpec (kws readName)

theorem kws_two_one (a b : Str) (t : Tok) : kws [a, b] [t] = none := by
  simp [kws]

/-! ## Parts of ALTER TABLE -/

theorem readAct_dropConstraint (n : Str) (h : PlainName .sqlserver n) :
    readAct (keywords .sqlserver) [.word b!"DROP", .word b!"CONSTRAINT", identTok .sqlserver n] =
      some (.dropConstraint n) := by
  simp [readAct, kws_word, kws_end, readOne_ident .sqlserver n h]

theorem readAct_dropColumn (n : Str) (h : PlainName .sqlserver n) :
    readAct (keywords .sqlserver) [.word b!"DROP", .word b!"COLUMN", identTok .sqlserver n] = some (.dropColumn n) := by
  simp [readAct, kws_word, kws_end, readOne_ident .sqlserver n h, toLower, lowerC]

theorem kws_default_ident (n : Str) (r : List Tok) :
    kws [b!"DEFAULT"] (identTok .sqlserver n :: r) = none := by
  have := isKw_ident .sqlserver b!"DEFAULT" n (by decide +kernel)
  simp [kws, this]

theorem kws_default_con (c : Con) : kws [b!"DEFAULT"] (conToks .sqlserver c) = none :=
  kws_none (conToks_head .sqlserver c) _ _ (by decide)

theorem readAct_addColumn (c : Col) (ty : List Tok) (h : c.Ok .sqlserver ty) :
    readAct (keywords .sqlserver) (.word b!"ADD" :: identTok .sqlserver c.name :: (ty ++ colTail .sqlserver c)) =
      some (.addColumn c) := by
  have e := readItem_col .sqlserver c ty h (by decide) (by intro h; cases h)
  simp [readAct, readAdd, kws_word, kws_end, kws_default_ident, toLower, lowerC, e]

theorem readAct_addConstraint (c : Con) (h : c.Ok .sqlserver)
    (he : ∀ m es p, c.kind ≠ .exclude m es p) :
    readAct (keywords .sqlserver) (.word b!"ADD" :: conToks .sqlserver c) =
      some (.addConstraint { c with kind := foldKind c.kind }) := by
  have e := readItem_con .sqlserver c h (fun m es p hk => absurd hk (he m es p))
  simp [readAct, readAdd, kws_word, kws_end, kws_default_con, toLower, lowerC, e]

theorem readAct_addDefault (e : List Tok) (n : Str) (h : PlainName .sqlserver n) (hf : flat 0 e)
    (hq : quiet [b!"FOR"] 0 e) (h0 : e ≠ []) :
    readAct (keywords .sqlserver) (.word b!"ADD" :: .word b!"DEFAULT" :: (e ++ [.word b!"FOR", identTok .sqlserver n])) =
      some (.addDefault e n) := by
  have e1 : untilWord [b!"FOR"] 0 (e ++ [.word b!"FOR", identTok .sqlserver n]) =
      (e, [.word b!"FOR", identTok .sqlserver n]) :=
    untilWord_eq _ _ _ _ hf hq (Or.inr ⟨_, _, rfl, by decide⟩)
  simp [readAct, readAdd, readAddDefault, kws_word, kws_end, toLower, lowerC, e1, h0,
    readOne_ident .sqlserver n h]

/-- The tokens of NULL and NOT NULL. -/
def nullToks : Option Bool → List Tok
  | none => []
  | some false => [.word b!"NULL"]
  | some true => [.word b!"NOT", .word b!"NULL"]

/-- The tokens of COLLATE. -/
def collToks (o : Option Tok) : List Tok := o.toList.flatMap fun t => [.word b!"COLLATE", t]

theorem readAct_alterColumn (n : Str) (h : PlainName .sqlserver n) (ty : List Tok) (hf : flat 0 ty)
    (hq : quiet [b!"COLLATE", b!"NOT", b!"NULL"] 0 ty) (h0 : ty ≠ []) (o : Option Tok)
    (z : Option Bool) :
    readAct (keywords .sqlserver) (.word b!"ALTER" :: .word b!"COLUMN" :: identTok .sqlserver n ::
      (ty ++ (collToks o ++ nullToks z))) = some (.alterColumn n (ty.map foldTok) o z) := by
  have e1 : untilWord [b!"COLLATE", b!"NOT", b!"NULL"] 0 (ty ++ (collToks o ++ nullToks z)) =
      (ty, collToks o ++ nullToks z) := by
    apply untilWord_eq _ _ _ _ hf hq
    cases o with
    | some t => exact Or.inr ⟨_, _, rfl, by decide⟩
    | none =>
      match z with
      | none => exact Or.inl rfl
      | some false => exact Or.inr ⟨_, _, rfl, by decide⟩
      | some true => exact Or.inr ⟨_, _, rfl, by decide⟩
  have e2 : readCollation (collToks o ++ nullToks z) = (o, nullToks z) := by
    cases o with
    | some t => simp [readCollation, collToks, kws, isKw]
    | none => rcases z with _ | _ | _ <;> simp [readCollation, collToks, nullToks, kws, isKw, toLower, lowerC]
  have e3 : readColAct n (ty ++ (collToks o ++ nullToks z)) =
      some (.alterColumn n (ty.map foldTok) o z) := by
    unfold readColAct
    rw [e1]
    simp only [e2]
    rw [if_neg h0]
    rcases z with _ | _ | _ <;> simp [nullToks, kws_word, kws_end, toLower, lowerC]
  simp [readAct, kws_word, kws_end, toLower, lowerC, nameOf_identTok .sqlserver n h, e3]

/-! ## Statements -/

/-- What begins with CREATE is read as in Verif.Spec.DdlText. -/
theorem readStmt_base (ts : List Tok) (st : DdlText.Stmt)
    (h : DdlText.readStmt .sqlserver (keywords .sqlserver) ts = some st)
    (ha : (∃ n xs, st = .createTable n xs) ∨ ∃ x, st = .createIndex x) :
    readStmt (keywords .sqlserver) ts = some (.base st) := by
  have hc : ∃ r, kws [b!"CREATE"] ts = some r := by
    match ts with
    | [] => simp [DdlText.readStmt, kws] at h
    | .quoted _ :: _ | .str _ :: _ | .punct _ :: _ => simp [DdlText.readStmt, kws, isKw] at h
    | .word w :: q =>
      by_cases hw : toLower w = toLower b!"CREATE"
      · exact ⟨q, by rw [kws_word, if_pos hw, kws_end]⟩
      · exfalso
        have hk : ∀ ks, kws (b!"CREATE" :: ks) (.word w :: q) = none := by
          intro ks; rw [kws_word, if_neg hw]
        unfold DdlText.readStmt at h
        simp only [hk] at h
        split at h
        · obtain ⟨x, _, rfl⟩ := Option.map_eq_some_iff.1 h
          rcases ha with ⟨_, _, e⟩ | ⟨_, e⟩ <;> cases e
        · split at h
          · simp only [Option.bind_eq_some_iff] at h
            obtain ⟨x, _, h⟩ := h
            split at h
            · cases h
              rcases ha with ⟨_, _, e⟩ | ⟨_, e⟩ <;> cases e
            · cases h
          · split at h
            · unfold readAlterTable at h
              simp only [Option.bind_eq_some_iff, Option.map_eq_some_iff] at h
              obtain ⟨p, _, xs, _, rfl⟩ := h
              rcases ha with ⟨_, _, e⟩ | ⟨_, e⟩ <;> cases e
            · cases h
  obtain ⟨r, hr⟩ := hc
  unfold readStmt
  rw [hr]
  simp only [h]
  rcases ha with ⟨n, xs, rfl⟩ | ⟨x, rfl⟩ <;> rfl

theorem readStmt_alter (n : Name) (hs : ∀ s ∈ n.1, PlainName .sqlserver s)
    (hn : PlainName .sqlserver n.2) (ts : List Tok) (a : Act) (hf : flat 0 ts)
    (ha : readAct (keywords .sqlserver) ts = some a) (hd : ts.head? ≠ some (.punct '.')) :
    readStmt (keywords .sqlserver) (.word b!"ALTER" :: .word b!"TABLE" :: (qnameToks .sqlserver n ++ ts)) =
      some (.alter n a) := by
  have e1 := readName_qname .sqlserver n hs hn ts hd
  simp [readStmt, kws_word, kws_end, toLower, lowerC, e1, splitTop_one 0 ts hf, ha]

theorem readStmt_dropSchema (n : Str) (hn : PlainName .sqlserver n) :
    readStmt (keywords .sqlserver) [.word b!"DROP", .word b!"SCHEMA", identTok .sqlserver n] = some (.dropSchema n) := by
  simp [readStmt, kws_word, kws_end, toLower, lowerC, readOne_ident .sqlserver n hn]

theorem readStmt_dropIndex (x : Str) (hx : PlainName .sqlserver x) (n : Name)
    (hs : ∀ s ∈ n.1, PlainName .sqlserver s) (hn : PlainName .sqlserver n.2) :
    readStmt (keywords .sqlserver) (.word b!"DROP" :: .word b!"INDEX" :: identTok .sqlserver x :: .word b!"ON" ::
      qnameToks .sqlserver n) = some (.dropIndex x n) := by
  have e1 := readName_qname .sqlserver n hs hn [] (by simp)
  simp only [List.append_nil] at e1
  simp [readStmt, readDropIndex, kws_word, kws_end, toLower, lowerC, e1,
    nameOf_identTok .sqlserver x hx]

/-- The word for what is dropped. -/
def Kind.word : Kind → Str
  | .view => b!"VIEW"
  | .table => b!"TABLE"
  | .procedure => b!"PROCEDURE"
  | .function => b!"FUNCTION"

theorem readStmt_drop (k : Kind) (n : Name) (hs : ∀ s ∈ n.1, PlainName .sqlserver s)
    (hn : PlainName .sqlserver n.2) :
    readStmt (keywords .sqlserver) (.word b!"DROP" :: .word k.word :: qnameToks .sqlserver n) = some (.drop k n) := by
  have e1 := readName_qname .sqlserver n hs hn [] (by simp)
  simp only [List.append_nil] at e1
  cases k <;> simp [readStmt, readDrop, dropHeads, Kind.word, kws_word, kws_end, toLower, lowerC, e1]

theorem readStmt_createSchema (x n q : Str) (h : readInner (keywords .sqlserver) q = some n) :
    readStmt (keywords .sqlserver) [.word b!"IF", .word b!"SCHEMA_ID", .punct '(', .str x, .punct ')', .word b!"IS",
      .word b!"NULL", .word b!"EXEC", .punct '(', .str q, .punct ')'] = some (.createSchema x n) := by
  simp [readStmt, readCreateSchema, kws_word, kws_end, toLower, lowerC, h]

/-! ## The block that drops a default -/

theorem after_append (pre ts : List Tok) : after pre (pre ++ ts) = some ts := by
  simp [after]

theorem readLookup_eq (s t c : Str) :
    readLookup (lookup ++ (.str s :: (andTable ++ (.str t :: (andColumn ++ [.str c]))))) =
      some (s, t, c) := by
  simp [readLookup, after_append, readStr]

theorem declare_not : readStmt (keywords .sqlserver) declare = none := by decide +kernel

end MsText
