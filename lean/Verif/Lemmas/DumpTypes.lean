import Verif.Spec.DumpTypes
import Verif.Props.DumpLoads

/-!
# Extensions, enums and domains as texts
-/

namespace PgTypes
open Go SqlSpec Sqddl DdlText EngineSpec Sqddl.Render
open WipeSpec (kws readName)
open Sqddl.Wipe (qualified)

/-! ## Scripts -/

/-- A text that is these statements. -/
def IsScript (cur s : Str) (sts : List Stmt) : Prop :=
  ∃ tss : List (List Tok), Reads .postgres s (tss.flatMap fun ts => ts ++ [.punct ';']) ∧
    (∀ ts ∈ tss, Tok.punct ';' ∉ ts) ∧
    tss.mapM (fun ts => (readStmt (keywords .postgres) ts).map (Stmt.resolve cur)) = some sts

theorem scripts (cur : Str) : DumpParts.Scripts .postgres (IsScript cur) where
  gap := fun s h => ⟨[], h, by simp, rfl⟩
  append := by
    rintro s t a b ⟨xs, r1, n1, m1⟩ ⟨ys, r2, n2, m2⟩
    refine ⟨xs ++ ys, by rw [List.flatMap_append]; exact r1.append r2, ?_,
      Postgres.mapM_append' _ _ _ _ _ m1 m2⟩
    intro ts hts
    rcases List.mem_append.1 hts with h | h
    · exact n1 ts h
    · exact n2 ts h

theorem IsScript.run {cur s : Str} {sts : List Stmt} (h : IsScript cur s sts) :
    runScript (keywords .postgres) cur s = some sts := by
  obtain ⟨tss, r, n, m⟩ := h
  unfold runScript
  rw [lex_of_readsP r.readsP, Option.bind_some, statements_flatMap tss n, m]

/-- Statements that are not about types. -/
theorem isScript_other {cur s : Str} {sts : List PgText.Stmt} (h : Postgres.IsScript cur s sts) :
    IsScript cur s (sts.map .other) := by
  obtain ⟨tss, r, n, m⟩ := h
  refine ⟨tss, r, n, ?_⟩
  clear r n
  induction tss generalizing sts with
  | nil =>
    have : sts = [] := (Option.some.inj m).symm
    subst this; rfl
  | cons ts tss ih =>
    rw [List.mapM_cons] at m
    obtain ⟨st, h1, m⟩ := Option.bind_eq_some_iff.1 m
    obtain ⟨rest, h2, h3⟩ := Option.bind_eq_some_iff.1 m
    have := Option.some.inj h3
    subst this
    obtain ⟨raw, h4, rfl⟩ := Option.map_eq_some_iff.1 h1
    have e : readStmt (keywords .postgres) ts = some (.other raw) := by
      unfold readStmt
      rw [h4]
    rw [List.mapM_cons, ih h2, e]
    rfl

/-- A text that is written before a semicolon. -/
theorem isScript_of {cur s : Str} {ts : List Tok} {st : Stmt}
    (h : ReadsP .postgres s ts) (hs : bal 0 ts)
    (hr : (readStmt (keywords .postgres) ts).map (Stmt.resolve cur) = some st) :
    s ++ b!";\n" ≠ [] ∧ IsScript cur (s ++ b!";\n") [st] := by
  refine ⟨by simp, [ts], ?_, ?_, ?_⟩
  · simpa using h.lit gap_semi
  · simpa using flat_no_semi 0 ts hs
  · simp [hr]

/-- CREATE with these words is not one of the other statements. -/
theorem other_none {w : Str} {r : List Tok} (h : w ∈ [b!"EXTENSION", b!"TYPE", b!"DOMAIN"]) :
    PgText.readStmt (keywords .postgres) (.word b!"CREATE" :: .word w :: r) = none := by
  simp only [List.mem_cons, List.not_mem_nil, or_false] at h
  rcases h with rfl | rfl | rfl <;> rfl

/-! ## Extensions -/

theorem createExtension_script {cur e : Str} (h : PlainName .postgres e) :
    Dump.createExtension .postgres e ≠ [] ∧
    IsScript cur (Dump.createExtension .postgres e) [.extension e] := by
  have p := (reads_lit .postgres b!"CREATE EXTENSION IF NOT EXISTS " (by decide) (by decide)).append_p
    (readsP_ident .postgres e)
  have e2 : stoks b!"CREATE EXTENSION IF NOT EXISTS " = [.word b!"CREATE", .word b!"EXTENSION",
    .word b!"IF", .word b!"NOT", .word b!"EXISTS"] := by decide
  have hb : bal 0 (stoks b!"CREATE EXTENSION IF NOT EXISTS " ++ [identTok .postgres e]) :=
    bal_append0 _ _ (by decide) (flat_bal _ _ (flat_ident .postgres e))
  refine isScript_of p hb ?_
  rw [e2]
  have : readStmt (keywords .postgres) ([.word b!"CREATE", .word b!"EXTENSION",
      .word b!"IF", .word b!"NOT", .word b!"EXISTS"] ++ [identTok .postgres e]) = some (.extension e) := by
    unfold readStmt
    rw [show ([Tok.word b!"CREATE", .word b!"EXTENSION", .word b!"IF", .word b!"NOT", .word b!"EXISTS"] ++
      [identTok .postgres e]) = .word b!"CREATE" :: .word b!"EXTENSION" :: (.word b!"IF" :: .word b!"NOT" ::
        .word b!"EXISTS" :: [identTok .postgres e]) from rfl, other_none (by simp)]
    have := kws_self [b!"CREATE", b!"EXTENSION", b!"IF", b!"NOT", b!"EXISTS"] [identTok .postgres e]
    simp only [List.map_cons, List.map_nil, List.cons_append, List.nil_append] at this
    simp only [this]
    rw [readOne_ident .postgres e h]
    rfl
  rw [this]
  rfl

/-! ## Enums -/

theorem readsP_label (s : Str) (h : ¬ HasInnerPair '\'' s) :
    ReadsP .postgres (b!"'" ++ escapeQuote '\'' s ++ b!"'") [.str s] := by
  intro rest hr
  have e := readQuoted_escapeQuote '\'' s rest hr.2.1
  rw [(collapse_eq_iff '\'' s).2 h] at e
  have e2 : b!"'" ++ escapeQuote '\'' s ++ b!"'" ++ rest = '\'' :: (escapeQuote '\'' s ++ '\'' :: rest) := by
    simp
  rw [e2, lex_cons]
  have : lexOne .postgres '\'' (escapeQuote '\'' s ++ '\'' :: rest) = some (some (.str s), rest) := by
    unfold lexOne readString
    rw [if_neg (by decide), if_neg (by decide), if_pos rfl]
    dsimp only
    rw [e]
    rfl
  rw [this, Option.bind_some]
  cases lex .postgres rest <;> rfl

theorem flat_str (s : Str) : flat 0 [.str s] = true := by
  simp [flat, deeper]

/-- The tokens of the labels. -/
def labelToks (ls : List Str) : List Tok := commaSep (ls.map fun l => [.str l])

theorem readEnum_eq {n : Name} (hs : ∀ s ∈ n.1, PlainName .postgres s) (hn : PlainName .postgres n.2)
    (ls : List Str) :
    readEnum (keywords .postgres) (qnameToks .postgres n ++ (.word b!"AS" :: .word b!"ENUM" ::
      .punct '(' :: (labelToks ls ++ [.punct ')']))) = some (.enum n ls) := by
  have hf : ∀ x ∈ ls.map (fun l => [Tok.str l]), flat 0 x := by
    intro x hx
    obtain ⟨l, _, rfl⟩ := List.mem_map.1 hx
    exact flat_str l
  unfold readEnum
  rw [readName_qname .postgres n hs hn _ (by simp), Option.bind_some]
  have := kws_self [b!"AS", b!"ENUM"] (.punct '(' :: (labelToks ls ++ [.punct ')']))
  simp only [List.map_cons, List.map_nil, List.cons_append, List.nil_append] at this
  simp only [this]
  rw [Option.bind_some, inBrackets_eq (labelToks ls) [] (bal_commaSep _ hf), Option.bind_some]
  dsimp only
  rw [if_neg (by simp)]
  cases ls with
  | nil => rfl
  | cons l ls =>
    have : labelToks (l :: ls) ≠ [] := by
      unfold labelToks
      cases ls <;> simp [commaSep]
    rw [if_neg this]
    unfold labelToks
    rw [splitTop_commaSep _ (by simp) hf, mapM_map_some readLabel _ id _ (fun x _ => rfl)]
    simp

theorem readStmt_create {w : Str} (hw : w ∈ [b!"TYPE", b!"DOMAIN"]) (r : List Tok) :
    readStmt (keywords .postgres) (.word b!"CREATE" :: .word w :: r) =
      if w = b!"TYPE" then readEnum (keywords .postgres) r else readDomain (keywords .postgres) r := by
  unfold readStmt
  simp only [List.mem_cons, List.not_mem_nil, or_false] at hw
  rcases hw with rfl | rfl
  · rw [other_none (by simp)]; rfl
  · rw [other_none (by simp)]; rfl

theorem tableName_plain {cur s n : Str} (h : PlainName .postgres s) :
    ∀ x ∈ (tableName cur s n).1, PlainName .postgres x := by
  intro x hx
  unfold tableName at hx
  by_cases hc : s ≠ [] ∧ s ≠ cur
  · grind
  · grind

theorem createEnum_script {cur s : Str} {e : Enum} (h0 : s ≠ []) (hs : PlainName .postgres s)
    (h : EnumOk e) :
    Dump.createEnum .postgres cur s e ≠ [] ∧
    IsScript cur (Dump.createEnum .postgres cur s e) [.enum (some s, e.enumName) e.enumLabels] := by
  have p1 := (reads_lit .postgres b!"CREATE TYPE " (by decide) (by decide)).append_p
    (readsP_qualified .postgres cur s e.enumName)
  have p2 := p1.piece (Piece.lit_then .postgres b!" AS ENUM (" [.word b!"AS", .word b!"ENUM", .punct '(']
    _ _ (by decide) (join_map_pairs e.enumLabels (fun l => b!"'" ++ escapeQuote '\'' l ++ b!"'")
      (fun l => [.str l]) .postgres fun l hl => readsP_label l (h.labels l hl)))
  have p3 := p2.piece (Piece.lit .postgres b!")" [.punct ')'] (by decide))
  have hf : bal 0 (labelToks e.enumLabels) := by
    refine bal_commaSep _ ?_
    intro x hx
    obtain ⟨l, _, rfl⟩ := List.mem_map.1 hx
    exact flat_str l
  have e2 : stoks b!"CREATE TYPE " = [.word b!"CREATE", .word b!"TYPE"] := by decide
  rw [e2] at p3
  have e3 : [Tok.word b!"CREATE", .word b!"TYPE"] ++ qnameToks .postgres (tableName cur s e.enumName) ++
      ([.word b!"AS", .word b!"ENUM", .punct '('] ++ commaSep (e.enumLabels.map fun l => [.str l])) ++
      [.punct ')'] = .word b!"CREATE" :: .word b!"TYPE" :: (qnameToks .postgres
        (tableName cur s e.enumName) ++ (.word b!"AS" :: .word b!"ENUM" :: .punct '(' ::
          (labelToks e.enumLabels ++ [.punct ')']))) := by
    simp [labelToks]
  rw [e3] at p3
  have key := isScript_of (cur := cur) (st := .enum (some s, e.enumName) e.enumLabels) p3 ?_ ?_
  · have e1 : Dump.createEnum .postgres cur s e =
        (b!"CREATE TYPE " ++ qualified .postgres cur s e.enumName ++ (b!" AS ENUM (" ++
          join b!", " (e.enumLabels.map fun l => b!"'" ++ escapeQuote '\'' l ++ b!"'")) ++ b!")") ++ b!";\n" := by
      unfold Dump.createEnum
      simp [List.append_assoc]
    rw [e1]
    exact key
  · refine flat_bal _ _ (flat_append0 [.word b!"CREATE", .word b!"TYPE"] _ (by decide)
      (flat_append0 _ _ (flat_qname _ _) (flat_append0 [.word b!"AS", .word b!"ENUM"] _ (by decide) ?_)))
    rw [flat_brackets _ [] hf]
    rfl
  · rw [readStmt_create (by simp), if_pos rfl, readEnum_eq (tableName_plain hs) h.name]
    show some (Stmt.enum (full cur (tableName cur s e.enumName)) e.enumLabels) = _
    rw [full_tableName, fullName, if_neg h0]

/-! ## Domains -/

/-- The tokens of the checks. -/
def checkToks (xs : List (Option Str × List Tok)) : List Tok :=
  xs.flatMap fun p => (p.1.toList.flatMap fun n => [.word b!"CONSTRAINT", identTok .postgres n]) ++
    .word b!"CHECK" :: .punct '(' :: (p.2 ++ [.punct ')'])

theorem headIn_checks (xs : List (Option Str × List Tok)) :
    HeadIn [b!"CONSTRAINT", b!"CHECK"] (checkToks xs) := by
  cases xs with
  | nil => exact headIn_nil _
  | cons p xs =>
    obtain ⟨o, e⟩ := p
    cases o with
    | none => exact headIn_word _ _ _ (by simp)
    | some n => exact headIn_word _ _ _ (by simp)

theorem readChecks_eq (xs : List (Option Str × List Tok)) (hn : ∀ p ∈ xs, ∀ n ∈ p.1, PlainName .postgres n)
    (he : ∀ p ∈ xs, bal 0 p.2 ∧ p.2 ≠ []) (m : Nat) (hm : (checkToks xs).length ≤ m) :
    readChecks (keywords .postgres) m (checkToks xs) = some xs := by
  induction xs generalizing m with
  | nil => cases m <;> rfl
  | cons p xs ih =>
    obtain ⟨o, e⟩ := p
    obtain ⟨hb, h0⟩ := he (o, e) (by simp)
    have e1 : checkToks ((o, e) :: xs) =
        (o.toList.flatMap fun n => [.word b!"CONSTRAINT", identTok .postgres n]) ++
        .word b!"CHECK" :: .punct '(' :: (e ++ .punct ')' :: checkToks xs) := by
      simp [checkToks, List.append_assoc]
    rw [e1] at hm ⊢
    have hc : ∀ r, kws [b!"CHECK"] (.word b!"CHECK" :: r) = some r := fun r => kws_self [b!"CHECK"] r
    have main : ∀ m, (checkToks xs).length ≤ m → (kws [b!"CHECK"] (.word b!"CHECK" :: .punct '(' ::
        (e ++ .punct ')' :: checkToks xs))).bind (fun r => (inBrackets r).bind fun (e, r) =>
          if e = [] then none else (readChecks (keywords .postgres) m r).map ((o, e) :: ·)) =
        some ((o, e) :: xs) := by
      intro m hm
      rw [hc, Option.bind_some, inBrackets_eq _ _ hb, Option.bind_some]
      dsimp only
      rw [if_neg h0, ih (fun p hp => hn p (by simp [hp])) (fun p hp => he p (by simp [hp])) m hm]
      rfl
    cases o with
    | none =>
      simp at hm ⊢
      cases m with
      | zero => omega
      | succ m =>
        unfold readChecks
        have : readConName .postgres (keywords .postgres) (.word b!"CHECK" :: .punct '(' ::
            (e ++ .punct ')' :: checkToks xs)) = some (none, .word b!"CHECK" :: .punct '(' ::
            (e ++ .punct ')' :: checkToks xs)) := rfl
        rw [this, Option.bind_some]
        exact main m (by omega)
    | some n =>
      simp at hm ⊢
      cases m with
      | zero => omega
      | succ m =>
        unfold readChecks
        have : readConName .postgres (keywords .postgres) (.word b!"CONSTRAINT" :: identTok .postgres n ::
            .word b!"CHECK" :: .punct '(' :: (e ++ .punct ')' :: checkToks xs)) = some (some n,
            .word b!"CHECK" :: .punct '(' :: (e ++ .punct ')' :: checkToks xs)) := by
          show (nameOf .postgres (keywords .postgres) (identTok .postgres n)).map _ = _
          rw [nameOf_identTok .postgres n (hn (some n, e) (by simp) n rfl)]
          rfl
        rw [this, Option.bind_some]
        exact main m (by omega)

theorem flat_checks (xs : List (Option Str × List Tok)) (he : ∀ p ∈ xs, bal 0 p.2) :
    flat 0 (checkToks xs) := by
  induction xs with
  | nil => rfl
  | cons p xs ih =>
    obtain ⟨o, e⟩ := p
    have e1 : checkToks ((o, e) :: xs) =
        (o.toList.flatMap fun n => [.word b!"CONSTRAINT", identTok .postgres n]) ++
        ([.word b!"CHECK"] ++ .punct '(' :: (e ++ .punct ')' :: checkToks xs)) := by
      simp [checkToks, List.append_assoc]
    rw [e1]
    refine flat_append0 _ _ ?_ (flat_append0 _ _ (by decide) ?_)
    · cases o with
      | none => rfl
      | some n => exact flat_append0 [.word b!"CONSTRAINT"] [identTok .postgres n] (by decide) (flat_ident _ _)
    · rw [flat_brackets _ _ (he (o, e) (by simp))]
      exact ih fun p hp => he p (by simp [hp])

/-- The tokens of a domain behind its type. -/
def domToks (x : Dom) : List Tok :=
  (if x.notNull then [b!"NOT", b!"NULL"].map Tok.word else []) ++
  ((x.collation.toList.flatMap fun t => [.word b!"COLLATE", t]) ++
  ((if x.default.isSome then .word b!"DEFAULT" :: x.default.getD [] else []) ++ checkToks x.checks))

/-- What has to hold for the parts of a domain. -/
structure Dom.Ok (x : Dom) : Prop where
  default : ∀ ts ∈ x.default, flat 0 ts ∧ quiet domStops 0 ts ∧ ts ≠ []
  checks : ∀ p ∈ x.checks, bal 0 p.2 ∧ p.2 ≠ []
  names : ∀ p ∈ x.checks, ∀ n ∈ p.1, PlainName .postgres n
  collation : ∀ t ∈ x.collation, flat 0 [t]

theorem headIn_default (o : Option (List Tok)) : HeadIn [b!"DEFAULT"]
    (if o.isSome then Tok.word b!"DEFAULT" :: o.getD [] else []) :=
  headIn_ite _ _ _ (by simp)

theorem headIn_collate (o : Option Tok) :
    HeadIn [b!"COLLATE"] (o.toList.flatMap fun t => [Tok.word b!"COLLATE", t]) := by
  cases o with
  | none => exact headIn_nil _
  | some t => exact headIn_word _ _ _ (by simp)

theorem headIn_notNull (b : Bool) : HeadIn [b!"NOT"] (if b then [b!"NOT", b!"NULL"].map Tok.word else []) :=
  headIn_ite b _ _ (by simp)

theorem headIn_dom3 (x : Dom) : HeadIn [b!"DEFAULT", b!"CONSTRAINT", b!"CHECK"]
    ((if x.default.isSome then .word b!"DEFAULT" :: x.default.getD [] else []) ++ checkToks x.checks) :=
  ((headIn_default _).mono (by simp)).append ((headIn_checks _).mono (by simp))

theorem headIn_dom2 (x : Dom) : HeadIn [b!"COLLATE", b!"DEFAULT", b!"CONSTRAINT", b!"CHECK"]
    ((x.collation.toList.flatMap fun t => [.word b!"COLLATE", t]) ++
      ((if x.default.isSome then .word b!"DEFAULT" :: x.default.getD [] else []) ++ checkToks x.checks)) :=
  ((headIn_collate _).mono (by simp)).append ((headIn_dom3 x).mono (by simp))

theorem headIn_dom (x : Dom) : HeadIn domStops (domToks x) :=
  ((headIn_notNull _).mono (by simp [domStops])).append ((headIn_dom2 x).mono (by simp [domStops]))

theorem readDomRest_eq {type : List Tok} (h0 : type ≠ []) {x : Dom} (h : x.Ok)
    (ht : x.type = type.map foldTok) :
    readDomRest (keywords .postgres) type (domToks x) = some x := by
  unfold readDomRest domToks
  rw [optKw_eq b!"NOT" [b!"NULL"] x.notNull _ (headIn_dom2 x) (by decide)]
  dsimp only
  rw [readCollation_eq x.collation _ (headIn_dom3 x) (by decide)]
  dsimp only
  have e : readDefault ((if x.default.isSome then .word b!"DEFAULT" :: x.default.getD [] else []) ++
      checkToks x.checks) = (x.default, checkToks x.checks) := by
    unfold readDefault
    cases hd : x.default with
    | none =>
      have := kws_none (headIn_checks x.checks) b!"DEFAULT" [] (by decide)
      simp [this]
    | some ts =>
      obtain ⟨h1, h2, _⟩ := h.default ts hd
      have e2 : kws [b!"DEFAULT"] (.word b!"DEFAULT" :: (ts ++ checkToks x.checks)) =
        some (ts ++ checkToks x.checks) := kws_self [b!"DEFAULT"] _
      have e3 := untilWord_eq domStops 0 ts (checkToks x.checks) h1 h2
        (headIn_stop (headIn_checks x.checks) (by decide))
      simp [e2, e3]
  rw [e]
  dsimp only
  rw [if_neg, readChecks_eq _ h.names h.checks _ (Nat.le_refl _), Option.map_some, ← ht]
  rintro (e | e)
  · exact h0 e
  · exact (h.default [] e).2.2 rfl

theorem readDomain_eq {n : Name} (hs : ∀ s ∈ n.1, PlainName .postgres s) (hn : PlainName .postgres n.2)
    {type : List Tok} (h0 : type ≠ []) (hf : flat 0 type) (hq : quiet domStops 0 type) {x : Dom} (h : x.Ok)
    (ht : x.type = type.map foldTok) :
    readDomain (keywords .postgres) (qnameToks .postgres n ++ (.word b!"AS" :: (type ++ domToks x))) =
      some (.domain n x) := by
  unfold readDomain
  rw [readName_qname .postgres n hs hn _ (by simp), Option.bind_some]
  have : kws [b!"AS"] (.word b!"AS" :: (type ++ domToks x)) = some (type ++ domToks x) :=
    kws_self [b!"AS"] _
  dsimp only
  rw [this, Option.bind_some, untilWord_eq domStops 0 type _ hf hq
    (headIn_stop (headIn_dom x) (by decide))]
  dsimp only
  rw [readDomRest_eq h0 h ht]
  rfl

theorem flat_dom {x : Dom} (h : x.Ok) : flat 0 (domToks x) := by
  unfold domToks
  refine flat_append0 _ _ (by cases x.notNull <;> decide) (flat_append0 _ _ ?_ (flat_append0 _ _ ?_
    (flat_checks _ fun p hp => (h.checks p hp).1)))
  · cases hc : x.collation with
    | none => rfl
    | some t => exact flat_append0 [.word b!"COLLATE"] [t] (by decide) (h.collation t hc)
  · cases hd : x.default with
    | none => rfl
    | some ts => exact flat_append0 [.word b!"DEFAULT"] ts (by decide) (h.default ts hd).1

/-- The checks with their names. -/
def checksOf : List Str → List Str → List (Option Str × List Tok)
  | [], _ => []
  | e :: es, ns => (ns.head?.filter (· ≠ []), exprToks .postgres e) :: checksOf es ns.tail

theorem mapIdx_checks (es ns : List Str) :
    (es.mapIdx fun i e => (ns[i]?.filter (· ≠ []), exprToks .postgres e)) = checksOf es ns := by
  induction es generalizing ns with
  | nil => rfl
  | cons e es ih =>
    rw [List.mapIdx_cons, checksOf, ← ih ns.tail]
    cases ns with
    | nil => simp
    | cons n ns => simp

theorem piece_checks {es ns : List Str} (he : ∀ e ∈ es, ExprText .postgres e ∧ e ≠ []) :
    Piece .postgres (Dump.domainChecks .postgres es ns) (checkToks (checksOf es ns)) := by
  induction es generalizing ns with
  | nil => exact Piece.nil _
  | cons e es ih =>
    have ih := ih (ns := ns.tail) fun x hx => he x (by simp [hx])
    obtain ⟨h1, h2⟩ := he e (by simp)
    have p2 := Piece.lit_then .postgres b!" CHECK " [.word b!"CHECK"] _ _ (by decide)
      (readsP_wrapBrackets .postgres e h2 h1).1
    have p1 : Piece .postgres (opt (decide (ns.headD [] ≠ [])) (b!" CONSTRAINT " ++
        quoteIdentifier .postgres (ns.headD [])))
        (((ns.head?.filter (· ≠ [])).toList).flatMap fun n => [.word b!"CONSTRAINT", identTok .postgres n]) := by
      cases ns with
      | nil => exact Piece.nil _
      | cons n ns =>
        by_cases hn : n = []
        · subst hn; exact Piece.nil _
        · have := Piece.lit_then .postgres b!" CONSTRAINT " [.word b!"CONSTRAINT"] _ _ (by decide)
            (readsP_ident .postgres n)
          simpa [opt, hn, Option.filter] using this
    have p := (p1.append p2).append ih
    have e1 : Dump.domainChecks .postgres (e :: es) ns = opt (decide (ns.headD [] ≠ [])) (b!" CONSTRAINT " ++
        quoteIdentifier .postgres (ns.headD [])) ++ (b!" CHECK " ++ wrapBrackets e) ++
        Dump.domainChecks .postgres es ns.tail := by
      simp [Dump.domainChecks, List.append_assoc]
    rw [e1]
    have e2 : checkToks (checksOf (e :: es) ns) =
        (((ns.head?.filter (· ≠ [])).toList).flatMap fun n => [.word b!"CONSTRAINT", identTok .postgres n]) ++
        ([.word b!"CHECK"] ++ .punct '(' :: (exprToks .postgres e ++ [.punct ')'])) ++
        checkToks (checksOf es ns.tail) := by
      simp [checksOf, checkToks]
    rw [e2]
    exact p

theorem domOf_ok (coll : Str) {x : Domain} (h : DomainOk x) : (domOf coll x).Ok where
  default := by
    intro ts hts
    unfold domOf at hts
    dsimp only at hts
    by_cases hd : x.columnDefault = []
    · rw [if_pos hd] at hts; cases hts
    · rw [if_neg hd] at hts
      obtain ⟨_, h1, h2, h3⟩ := h.default hd
      cases hts
      exact ⟨h1, h2, h3⟩
  checks := by
    intro p hp
    obtain ⟨i, hi, rfl⟩ := List.mem_mapIdx.1 hp
    obtain ⟨h1, h2, h3⟩ := h.checks _ (List.getElem_mem hi)
    exact ⟨(readsP_wrapBrackets .postgres _ h2 h1).2, h3⟩
  names := by
    intro p hp n hn
    obtain ⟨i, hi, rfl⟩ := List.mem_mapIdx.1 hp
    dsimp only at hn
    have : x.checkNames[i]? = some n := by
      cases hc : x.checkNames[i]? with
      | none => rw [hc] at hn; cases hn
      | some m =>
        rw [hc] at hn
        by_cases hm : m = []
        · simp [Option.filter, hm] at hn
        · simp [Option.filter, hm] at hn; rw [hn]
    exact h.checkNames n (List.mem_of_getElem? this)
  collation := by
    intro t ht
    unfold domOf at ht
    dsimp only at ht
    by_cases hc : x.collationName = [] ∨ x.collationName = coll
    · rw [if_pos hc] at ht; cases ht
    · rw [if_neg hc] at ht
      cases ht
      simp [flat, deeper]

theorem createDomain_script {cur coll s : Str} {x : Domain} (h0 : s ≠ []) (hs : PlainName .postgres s)
    (h : DomainOk x) :
    Dump.createDomain .postgres cur coll s x ≠ [] ∧
    IsScript cur (Dump.createDomain .postgres cur coll s x)
      [.domain (some s, x.domainName) (domOf coll x)] := by
  obtain ⟨t1, t2, t3, t4⟩ := h.type
  have hok := domOf_ok coll h
  have p1 := (reads_lit .postgres b!"CREATE DOMAIN " (by decide) (by decide)).append_p
    (readsP_qualified .postgres cur s x.domainName)
  have p2 := p1.piece (Piece.lit_then .postgres b!" AS " [.word b!"AS"] _ _ (by decide) (readsP_toks t1))
  have q1 := piece_optWords .postgres x.isNotNull b!" NOT NULL" [b!"NOT", b!"NULL"] (by decide)
  have q2 : Piece .postgres (opt (decide (x.collationName ≠ [] ∧ x.collationName ≠ coll))
      (b!" COLLATE \"" ++ escapeQuote '"' x.collationName ++ b!"\""))
      ((domOf coll x).collation.toList.flatMap fun t => [.word b!"COLLATE", t]) := by
    unfold domOf
    dsimp only
    by_cases hc : x.collationName = [] ∨ x.collationName = coll
    · have : decide (x.collationName ≠ [] ∧ x.collationName ≠ coll) = false := by
        simp only [decide_eq_false_iff_not]; grind
      rw [this, if_pos hc]
      exact Piece.nil _
    · have : decide (x.collationName ≠ [] ∧ x.collationName ≠ coll) = true := by
        simp only [decide_eq_true_eq]; grind
      rw [this, if_neg hc]
      have := Piece.lit_then .postgres b!" COLLATE " [.word b!"COLLATE"] _ _ (by decide)
        (readsP_quoted x.collationName h.collation)
      simpa [opt] using this
  have q3 : Piece .postgres (opt (decide (x.columnDefault ≠ [])) (b!" DEFAULT " ++ x.columnDefault))
      (if (domOf coll x).default.isSome then .word b!"DEFAULT" :: (domOf coll x).default.getD [] else []) := by
    have := piece_clause (d := .postgres) (decide (x.columnDefault ≠ [])) b!" DEFAULT " [.word b!"DEFAULT"]
      (t := x.columnDefault) (by decide) (fun hb => (h.default (of_decide_eq_true hb)).1)
    unfold domOf
    dsimp only
    by_cases hd : x.columnDefault = []
    · simp [hd] at this ⊢; exact this
    · simp [hd] at this ⊢; exact this
  have q4 : Piece .postgres (Dump.domainChecks .postgres x.checkExprs x.checkNames)
      (checkToks (domOf coll x).checks) := by
    have := piece_checks (es := x.checkExprs) (ns := x.checkNames)
      fun e he => ⟨(h.checks e he).1, (h.checks e he).2.1⟩
    rw [← mapIdx_checks] at this
    exact this
  have p3 := p2.piece (q1.append (q2.append (q3.append q4)))
  have e2 : stoks b!"CREATE DOMAIN " = [.word b!"CREATE", .word b!"DOMAIN"] := by decide
  have e3 : [Tok.word b!"CREATE", .word b!"DOMAIN"] ++ qnameToks .postgres (tableName cur s x.domainName) ++
      ([.word b!"AS"] ++ toks .postgres x.underlyingType) ++
      (optWords x.isNotNull [b!"NOT", b!"NULL"] ++
        (((domOf coll x).collation.toList.flatMap fun t => [.word b!"COLLATE", t]) ++
        ((if (domOf coll x).default.isSome then .word b!"DEFAULT" :: (domOf coll x).default.getD [] else []) ++
        checkToks (domOf coll x).checks))) =
      .word b!"CREATE" :: .word b!"DOMAIN" :: (qnameToks .postgres (tableName cur s x.domainName) ++
        (.word b!"AS" :: (toks .postgres x.underlyingType ++ domToks (domOf coll x)))) := by
    have : domToks (domOf coll x) = optWords x.isNotNull [b!"NOT", b!"NULL"] ++
        (((domOf coll x).collation.toList.flatMap fun t => [.word b!"COLLATE", t]) ++
        ((if (domOf coll x).default.isSome then .word b!"DEFAULT" :: (domOf coll x).default.getD [] else []) ++
        checkToks (domOf coll x).checks)) := rfl
    rw [this]
    simp only [List.append_assoc, List.cons_append, List.nil_append]
  rw [e2, e3] at p3
  have key := isScript_of (cur := cur) (st := .domain (some s, x.domainName) (domOf coll x)) p3 ?_ ?_
  · have e1 : Dump.createDomain .postgres cur coll s x =
        (b!"CREATE DOMAIN " ++ qualified .postgres cur s x.domainName ++ (b!" AS " ++ x.underlyingType) ++
          (opt x.isNotNull b!" NOT NULL" ++ (opt (decide (x.collationName ≠ [] ∧ x.collationName ≠ coll))
            (b!" COLLATE \"" ++ escapeQuote '"' x.collationName ++ b!"\"") ++
            (opt (decide (x.columnDefault ≠ [])) (b!" DEFAULT " ++ x.columnDefault) ++
            Dump.domainChecks .postgres x.checkExprs x.checkNames)))) ++ b!";\n" := by
      unfold Dump.createDomain
      simp only [List.append_assoc]
    rw [e1]
    exact key
  · exact flat_bal _ _ (flat_append0 [.word b!"CREATE", .word b!"DOMAIN"] _ (by decide)
      (flat_append0 _ _ (flat_qname _ _) (flat_append0 [.word b!"AS"] _ (by decide)
        (flat_append0 _ _ t2 (flat_dom hok)))))
  · rw [readStmt_create (by simp), if_neg (by decide),
      readDomain_eq (tableName_plain hs) h.name t4 t2 t3 hok rfl]
    show some (Stmt.domain (full cur (tableName cur s x.domainName)) (domOf coll x)) = _
    rw [full_tableName, fullName, if_neg h0]

end PgTypes
