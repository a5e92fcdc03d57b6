import Verif.Props.PgScript

/-!
# ALTER TABLE statements of Postgres migrations are read back (C66)
-/

namespace Sqddl.Postgres
open Go SqlSpec DdlText CatalogSpec Sqddl.Render Sqddl.Files PgText
open Sqddl.Wipe (qualified buffer addStmt)
open PgText (Act Stmt readStmt readAct)

/-! ## Columns -/

/-- A part that changes a column. -/
theorem isAct_column {cur owner nm n tail : Str} {t : Tok} {r : List Tok} {act : Act}
    (hn : ReadsP .postgres nm [t]) (ht : nameOf .postgres (keywords .postgres) t = some n)
    (hf : flat 0 [t]) (p : Piece .postgres tail r) (hr : flat 0 r)
    (ha : readColAct n r = some act) (ho : act.resolve cur owner = act) :
    IsAct cur owner (b!"ALTER COLUMN " ++ nm ++ tail) act := by
  have p1 := (reads_lit .postgres b!"ALTER COLUMN " (by decide) (by decide)).append_p (hn.piece p)
  have e : stoks b!"ALTER COLUMN " = [.word b!"ALTER", .word b!"COLUMN"] := by decide
  rw [e, ← List.append_assoc] at p1
  refine ⟨_, _, p1, ?_, ?_, ho, by simp⟩
  · exact flat_append0 _ _ (by rfl) (flat_append0 _ _ hf hr)
  · exact (readAct_column t n ht r).trans ha

/-- The same with a column whose name is written without quotes. -/
theorem isAct_self {cur owner n tail : Str} {r : List Tok} {act : Act}
    (hn : SelfName (keywords .postgres) n) (p : Piece .postgres tail r) (hr : flat 0 r)
    (ha : readColAct n r = some act) (ho : act.resolve cur owner = act) :
    IsAct cur owner (b!"ALTER COLUMN " ++ n ++ tail) act :=
  isAct_column (readsP_self hn) hn.name (by rfl) p hr ha ho

/-- The tokens of a collation. -/
def collToks (o : Option Str) : List Tok :=
  (o.map Tok.quoted).toList.flatMap fun t => [.word b!"COLLATE", t]

/-- The text of a collation. -/
def collText (o : Option Str) : Str :=
  o.toList.flatMap fun s => b!" COLLATE \"" ++ escapeQuote '"' s ++ b!"\""

theorem piece_collText (o : Option Str) (h : ∀ s ∈ o, ¬ HasInnerPair '"' s) :
    Piece .postgres (collText o) (collToks o) := by
  cases o with
  | none => exact Piece.nil _
  | some s =>
    have := Piece.lit_then .postgres b!" COLLATE " [.word b!"COLLATE"] _ _ (by decide)
      (readsP_quoted s (h s rfl))
    simpa [collText, collToks] using this

theorem flat_collToks (o : Option Str) : flat 0 (collToks o) := by
  cases o <;> rfl

theorem isAct_type (cur owner n ty : Str) (o : Option Str) (hn : SelfName (keywords .postgres) n)
    (ht : Fragment .postgres ty) (hf : flat 0 (toks .postgres ty))
    (hq : quiet [b!"COLLATE"] 0 (toks .postgres ty)) (h : ∀ s ∈ o, ¬ HasInnerPair '"' s) :
    IsAct cur owner (b!"ALTER COLUMN " ++ n ++ (b!" TYPE " ++ ty ++ collText o))
      (.setType n ((toks .postgres ty).map foldTok) (o.map Tok.quoted)) := by
  have p := (Piece.lit_then .postgres b!" TYPE " [.word b!"TYPE"] _ _ (by decide)
    (readsP_toks ht)).append (piece_collText o h)
  refine isAct_self hn p ?_ ?_ rfl
  · exact flat_append0 _ _ (flat_cons_word _ _ hf) (flat_collToks o)
  · have := readColAct_type n _ hf hq (o.map Tok.quoted)
    exact this

theorem isAct_words (cur owner n s : Str) (ws : List Str) (act : Act)
    (hn : SelfName (keywords .postgres) n) (hs : IsLit s (ws.map Tok.word))
    (ha : readColAct n (ws.map Tok.word) = some act) (ho : act.resolve cur owner = act) :
    IsAct cur owner (b!"ALTER COLUMN " ++ n ++ s) act :=
  isAct_self hn (Piece.lit .postgres s _ hs) (flat_words ws) ha ho

theorem isAct_dropDefault (cur owner n : Str) (hn : SelfName (keywords .postgres) n) :
    IsAct cur owner (b!"ALTER COLUMN " ++ n ++ b!" DROP DEFAULT") (.dropDefault n) :=
  isAct_words cur owner n _ [b!"DROP", b!"DEFAULT"] _ hn (by decide) (readColAct_dropDefault n) rfl

theorem isAct_dropNotNull (cur owner n : Str) (hn : SelfName (keywords .postgres) n) :
    IsAct cur owner (b!"ALTER COLUMN " ++ n ++ b!" DROP NOT NULL") (.dropNotNull n) :=
  isAct_words cur owner n _ [b!"DROP", b!"NOT", b!"NULL"] _ hn (by decide)
    (readColAct_dropNotNull n) rfl

theorem isAct_setNotNull (cur owner n : Str) (hn : SelfName (keywords .postgres) n) :
    IsAct cur owner (b!"ALTER COLUMN " ++ n ++ b!" SET NOT NULL") (.setNotNull n) :=
  isAct_words cur owner n _ [b!"SET", b!"NOT", b!"NULL"] _ hn (by decide)
    (readColAct_setNotNull n) rfl

theorem isAct_setNotNull_quoted (cur owner n : Str) (hn : PlainName .postgres n) :
    IsAct cur owner (b!"ALTER COLUMN " ++ quoteIdentifier .postgres n ++ b!" SET NOT NULL")
      (.setNotNull n) :=
  isAct_column (readsP_ident .postgres n) (nameOf_identTok .postgres n hn) (flat_ident .postgres n)
    (Piece.lit .postgres b!" SET NOT NULL" ([b!"SET", b!"NOT", b!"NULL"].map Tok.word) (by decide))
    (flat_words _) (readColAct_setNotNull n) rfl

theorem isAct_dropIdentity (cur owner n : Str) (hn : SelfName (keywords .postgres) n) :
    IsAct cur owner (b!"ALTER COLUMN " ++ n ++ b!" DROP IDENTITY") (.dropIdentity n) :=
  isAct_words cur owner n _ [b!"DROP", b!"IDENTITY"] _ hn (by decide)
    (readColAct_dropIdentity n) rfl

theorem isAct_setDefault (cur owner n e : Str) (hn : SelfName (keywords .postgres) n)
    (he : Fragment .postgres e) (hf : flat 0 (toks .postgres e)) (h0 : toks .postgres e ≠ []) :
    IsAct cur owner (b!"ALTER COLUMN " ++ n ++ (b!" SET DEFAULT " ++ e))
      (.setDefault n (toks .postgres e)) := by
  have p := Piece.lit_then .postgres b!" SET DEFAULT " [.word b!"SET", .word b!"DEFAULT"] _ _
    (by decide) (readsP_toks he)
  exact isAct_self hn p (flat_cons_word _ _ (flat_cons_word _ _ hf))
    (readColAct_setDefault n _ h0) rfl

theorem isAct_addIdentity (cur owner n i : Str) (hn : SelfName (keywords .postgres) n)
    (hi : Fragment .postgres i) (h : toks .postgres i ∈ identities .postgres) :
    IsAct cur owner (b!"ALTER COLUMN " ++ n ++ (b!" ADD " ++ i))
      (.addIdentity n (toks .postgres i)) := by
  have p := Piece.lit_then .postgres b!" ADD " [.word b!"ADD"] _ _ (by decide) (readsP_toks hi)
  refine isAct_self hn p (flat_cons_word _ _ ?_) (readColAct_addIdentity n _ h) rfl
  have := flat_identity (d := .postgres) (o := some (toks .postgres i)) (by simpa using h)
  exact this

/-- The CHECK that stands for NOT NULL. -/
def notNullCon (name col : Str) : Con :=
  ⟨some name, .check [.word col, .word b!"IS", .word b!"NOT", .word b!"NULL"], false, false, true⟩

theorem isAct_notNullCheck (cur owner name n : Str) (hc : PlainName .postgres name)
    (hn : SelfName (keywords .postgres) n) :
    IsAct cur owner (b!"ADD CONSTRAINT " ++ quoteIdentifier .postgres name ++
      (b!" CHECK (" ++ n ++ b!" IS NOT NULL) NOT VALID")) (.addConstraint (notNullCon name n)) := by
  have p := (reads_lit .postgres b!"ADD CONSTRAINT " (by decide) (by decide)).append_p
    ((readsP_ident .postgres name).piece ((Piece.lit_then .postgres b!" CHECK ("
      [.word b!"CHECK", .punct '('] _ _ (by decide) (readsP_self hn)).append
      (Piece.lit .postgres b!" IS NOT NULL) NOT VALID" [.word b!"IS", .word b!"NOT", .word b!"NULL",
        .punct ')', .word b!"NOT", .word b!"VALID"] (by decide))))
  have e : stoks b!"ADD CONSTRAINT " = [.word b!"ADD", .word b!"CONSTRAINT"] := by decide
  rw [e] at p
  let c : Con := { notNullCon name n with notValid := false }
  have hok : c.Ok .postgres := ⟨by
    intro x hx
    have : x = name := by simpa [c, notNullCon] using hx.symm
    subst this; exact hc, by
      show KindOk .postgres (ConKind.check [.word n, .word b!"IS", .word b!"NOT", .word b!"NULL"])
      exact (by rfl : bal 0 [.word n, .word b!"IS", .word b!"NOT", .word b!"NULL"] = true), rfl⟩
  have hr := readAct_addConstraint c hok true
  have et : [Tok.word b!"ADD", .word b!"CONSTRAINT"] ++ ([identTok .postgres name] ++
      ([.word b!"CHECK", .punct '('] ++ [.word n] ++ [.word b!"IS", .word b!"NOT", .word b!"NULL",
        .punct ')', .word b!"NOT", .word b!"VALID"])) =
      .word b!"ADD" :: (conToks .postgres c ++ optWords true [b!"NOT", b!"VALID"]) := by
    simp [conToks, c, notNullCon, kindToks, optWords]
  rw [et] at p
  rw [List.append_assoc]
  refine ⟨_, _, p, ?_, hr, ?_, by simp⟩
  · exact flat_cons_word _ _ (flat_append0 _ _ (flat_con .postgres c hok) (flat_optWords _ _))
  · rfl

theorem isAct_addKeyUsing (cur owner n ct : Str) (hn : PlainName .postgres n)
    (ht : ct = b!"PRIMARY KEY" ∨ ct = b!"UNIQUE") :
    IsAct cur owner (b!"ADD CONSTRAINT " ++ quoteIdentifier .postgres n ++ (b!" " ++ ct ++
      b!" USING INDEX ") ++ quoteIdentifier .postgres n)
      (.addKeyUsing n (decide (ct = b!"PRIMARY KEY")) n) := by
  have key : ∀ (p : Bool) (s : Str) (ts : List Tok), IsGap s (ts ++ [.word b!"USING", .word b!"INDEX"]) →
      ts = (if p then [.word b!"PRIMARY", .word b!"KEY"] else [.word b!"UNIQUE"]) →
      IsAct cur owner (b!"ADD CONSTRAINT " ++ quoteIdentifier .postgres n ++ s ++
        quoteIdentifier .postgres n) (.addKeyUsing n p n) := by
    intro p s ts hs hts
    have p1 := (reads_lit .postgres b!"ADD CONSTRAINT " (by decide) (by decide)).append_p
      ((readsP_ident .postgres n).piece (Piece.lit_then .postgres s _ _ _ hs
        (readsP_ident .postgres n)))
    have e : stoks b!"ADD CONSTRAINT " = [.word b!"ADD", .word b!"CONSTRAINT"] := by decide
    rw [e] at p1
    simp only [← List.append_assoc] at p1
    refine ⟨_, .addKeyUsing n p n, p1, ?_, ?_, rfl, by simp⟩
    · refine flat_append0 _ _ ?_ (flat_ident .postgres n)
      simp only [List.append_assoc]
      refine flat_append0 _ _ (by rfl) (flat_append0 _ _ (flat_ident .postgres n) ?_)
      subst hts
      cases p <;> rfl
    · have := readAct_addKeyUsing n n hn hn p
      subst hts
      simpa using this
  rcases ht with rfl | rfl
  · exact key true _ _ (by decide) rfl
  · exact key false _ _ (by decide) rfl

theorem isAct_alterConstraint (cur owner n : Str) (hn : PlainName .postgres n) (a b : Bool) :
    IsAct cur owner (b!"ALTER CONSTRAINT " ++ quoteIdentifier .postgres n ++
      ((if a then b!" DEFERRABLE" else b!" NOT DEFERRABLE") ++ opt b b!" INITIALLY DEFERRED"))
      (.alterConstraint n a b) := by
  have p0 : Piece .postgres (if a then b!" DEFERRABLE" else b!" NOT DEFERRABLE")
      (if a then [.word b!"DEFERRABLE"] else [.word b!"NOT", .word b!"DEFERRABLE"]) := by
    cases a
    · exact Piece.lit .postgres b!" NOT DEFERRABLE" _ (by decide)
    · exact Piece.lit .postgres b!" DEFERRABLE" _ (by decide)
  have p := (reads_lit .postgres b!"ALTER CONSTRAINT " (by decide) (by decide)).append_p
    ((readsP_ident .postgres n).piece (p0.append
      (piece_optWords .postgres b b!" INITIALLY DEFERRED" [b!"INITIALLY", b!"DEFERRED"] (by decide))))
  have e : stoks b!"ALTER CONSTRAINT " = [.word b!"ALTER", .word b!"CONSTRAINT"] := by decide
  rw [e] at p
  rw [List.append_assoc]
  refine ⟨_, .alterConstraint n a b, p, ?_, ?_, rfl, by simp⟩
  · refine flat_append0 _ _ (by rfl) (flat_append0 _ _ (flat_ident .postgres n)
      (flat_append0 _ _ ?_ (flat_optWords _ _)))
    cases a <;> rfl
  · exact readAct_alterConstraint n hn a b

end Sqddl.Postgres
