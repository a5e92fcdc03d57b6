import Verif.Lemmas.DdlText
import Verif.Spec.DdlMeaning

/-!
# Reading the clauses of column definitions, constraints and indexes
-/

namespace DdlText
open SqlSpec Go Sqddl
open WipeSpec (kws readName)

/-- The tokens are empty or begin with one of the words. -/
def HeadIn (ks : List Str) (ts : List Tok) : Prop :=
  ts = [] ∨ ∃ w r, ts = .word w :: r ∧ w ∈ ks

theorem headIn_nil (ks : List Str) : HeadIn ks [] := Or.inl rfl

theorem headIn_word (ks : List Str) (w : Str) (r : List Tok) (h : w ∈ ks) :
    HeadIn ks (.word w :: r) := Or.inr ⟨w, r, rfl, h⟩

theorem HeadIn.append {ks : List Str} {a b : List Tok} (h1 : HeadIn ks a) (h2 : HeadIn ks b) :
    HeadIn ks (a ++ b) := by
  rcases h1 with rfl | ⟨w, r, rfl, h⟩
  · exact h2
  · exact Or.inr ⟨w, r ++ b, rfl, h⟩

theorem HeadIn.mono {ks ks' : List Str} {a : List Tok} (h : HeadIn ks a) (hs : ks ⊆ ks') :
    HeadIn ks' a := by
  rcases h with rfl | ⟨w, r, rfl, h⟩
  · exact headIn_nil _
  · exact headIn_word _ _ _ (hs h)

theorem headIn_ite {ks : List Str} (b : Bool) (w : Str) (r : List Tok) (h : w ∈ ks) :
    HeadIn ks (if b then .word w :: r else []) := by
  cases b
  · exact headIn_nil _
  · exact headIn_word _ _ _ h

theorem kws_none {ks : List Str} {ts : List Tok} (h : HeadIn ks ts) (k : Str) (ks' : List Str)
    (hk : ks.all (fun x => toLower x != toLower k) = true) : kws (k :: ks') ts = none := by
  rcases h with rfl | ⟨w, r, rfl, h⟩
  · rfl
  · have : (toLower w == toLower k) = false := by
      simp only [List.all_eq_true] at hk
      simpa using hk w h
    simp [kws, isKw, this]

theorem kws_self (ks : List Str) (r : List Tok) : kws ks (ks.map Tok.word ++ r) = some r := by
  induction ks with
  | nil => rfl
  | cons k ks ih => simp [kws, isKw, ih]

theorem optKw_eq {hs : List Str} (k : Str) (ks : List Str) (b : Bool) (rest : List Tok)
    (h : HeadIn hs rest) (hk : hs.all (fun x => toLower x != toLower k) = true) :
    optKw (k :: ks) ((if b then (k :: ks).map Tok.word else []) ++ rest) = (b, rest) := by
  unfold optKw
  cases b
  · simp [kws_none h k ks hk]
  · simp only [if_true]
    rw [kws_self]

theorem headIn_stop {hs ks : List Str} {rest : List Tok} (h : HeadIn hs rest)
    (hk : hs.all (fun x => ks.contains x) = true) :
    rest = [] ∨ ∃ t r, rest = t :: r ∧ ks.any (fun k => isKw k t) := by
  rcases h with rfl | ⟨w, r, rfl, h⟩
  · exact Or.inl rfl
  · refine Or.inr ⟨_, r, rfl, ?_⟩
    simp only [List.all_eq_true, List.contains_iff_mem] at hk
    simp only [List.any_eq_true]
    exact ⟨w, hk w h, by simp [isKw]⟩

theorem readDefault_eq {hs : List Str} (b : Bool) (ts rest : List Tok) (hf : flat 0 ts)
    (hq : quiet stops 0 ts) (h : HeadIn hs rest)
    (hk : hs.all (fun x => stops.contains x && toLower x != b!"default") = true) :
    readDefault ((if b then .word b!"DEFAULT" :: ts else []) ++ rest) =
      (if b then some ts else none, rest) := by
  simp only [List.all_eq_true, Bool.and_eq_true] at hk
  unfold readDefault
  cases b
  · have : kws [b!"DEFAULT"] rest = none :=
      kws_none h _ _ (by simp only [List.all_eq_true]; exact fun x hx => (hk x hx).2)
    simp [this]
  · have e := untilWord_eq stops 0 ts rest hf hq
      (headIn_stop h (by simp only [List.all_eq_true]; exact fun x hx => (hk x hx).1))
    have e2 : kws [b!"DEFAULT"] (.word b!"DEFAULT" :: (ts ++ rest)) = some (ts ++ rest) :=
      kws_self [b!"DEFAULT"] _
    simp only [if_true, List.cons_append, e2, e]

theorem readCollation_eq {hs : List Str} (o : Option Tok) (rest : List Tok) (h : HeadIn hs rest)
    (hk : hs.all (fun x => toLower x != b!"collate") = true) :
    readCollation ((o.toList.flatMap fun t => [.word b!"COLLATE", t]) ++ rest) = (o, rest) := by
  unfold readCollation
  cases o with
  | none => simp [kws_none h b!"COLLATE" [] hk]
  | some t =>
    have : kws [b!"COLLATE"] (.word b!"COLLATE" :: t :: rest) = some (t :: rest) :=
      kws_self [b!"COLLATE"] _
    simp [this]

/-- The tokens of the expression of a generated column. -/
def genToks (d : Dialect) (g : Option (List Tok × Bool)) : List Tok :=
  g.toList.flatMap fun p =>
    (if d = .sqlite ∨ d = .postgres then [.word b!"GENERATED", .word b!"ALWAYS"] else []) ++
    .word b!"AS" :: .punct '(' :: (p.1 ++ .punct ')' ::
      if p.2 then [.word (if d = .sqlserver then b!"PERSISTED" else b!"STORED")] else [])

theorem headIn_gen (d : Dialect) (g : Option (List Tok × Bool)) :
    HeadIn [b!"GENERATED", b!"AS"] (genToks d g) := by
  cases g with
  | none => exact headIn_nil _
  | some p =>
    simp only [genToks, Option.toList_some, List.flatMap_cons, List.flatMap_nil, List.append_nil]
    split
    · exact headIn_word _ _ _ (by simp)
    · exact headIn_word _ _ _ (by simp)

theorem readGenerated_eq {hs : List Str} (d : Dialect) (g : Option (List Tok × Bool))
    (rest : List Tok) (hb : ∀ p ∈ g, bal 0 p.1) (h : HeadIn hs rest)
    (hk : hs.all (fun x => ![b!"generated", b!"as", b!"stored", b!"persisted"].contains
      (toLower x)) = true) :
    readGenerated d (genToks d g ++ rest) = (g, rest) := by
  simp only [List.all_eq_true] at hk
  have hn : ∀ k ∈ [b!"GENERATED", b!"AS", b!"STORED", b!"PERSISTED"], ∀ ks,
      kws (k :: ks) rest = none := by
    intro k hk' ks
    apply kws_none h
    simp only [List.all_eq_true]
    intro x hx
    have := hk x hx
    simp only [List.mem_cons, List.not_mem_nil, or_false] at hk'
    rcases hk' with rfl | rfl | rfl | rfl <;> simp [toLower, lowerC] at this ⊢ <;> simp [this]
  cases g with
  | none =>
    simp only [genToks, Option.toList_none, List.flatMap_nil, List.nil_append]
    unfold readGenerated optKw
    simp [hn b!"GENERATED" (by simp), hn b!"AS" (by simp)]
  | some p =>
    obtain ⟨e, s⟩ := p
    have hbe := hb _ rfl
    have hs : ∀ k, (k = b!"STORED" ∨ k = b!"PERSISTED") →
        optKw [k] ((if s then [Tok.word k] else []) ++ rest) = (s, rest) := by
      intro k hk'
      unfold optKw
      cases s
      · have := hn k (by rcases hk' with rfl | rfl <;> simp) []
        simp [this]
      · have := kws_self [k] rest
        simp at this
        simp [this]
    have main : ∀ pre, (kws [b!"AS"] (optKw [b!"GENERATED", b!"ALWAYS"] (pre ++ .word b!"AS" ::
          .punct '(' :: (e ++ .punct ')' ::
          ((if s then [.word (if d = .sqlserver then b!"PERSISTED" else b!"STORED")] else []) ++
            rest)))).2 = some (.punct '(' :: (e ++ .punct ')' ::
          ((if s then [.word (if d = .sqlserver then b!"PERSISTED" else b!"STORED")] else []) ++
            rest)))) →
        readGenerated d (pre ++ .word b!"AS" :: .punct '(' :: (e ++ .punct ')' ::
          ((if s then [.word (if d = .sqlserver then b!"PERSISTED" else b!"STORED")] else []) ++
            rest))) = (some (e, s), rest) := by
      intro pre hp
      unfold readGenerated
      simp only [hp, inBrackets_eq e _ hbe]
      by_cases hd : d = .sqlserver
      · simp only [hd, if_true, hs b!"PERSISTED" (Or.inr rfl)]
      · simp only [hd, if_false, hs b!"STORED" (Or.inl rfl)]
    simp only [genToks, Option.toList_some, List.flatMap_cons, List.flatMap_nil, List.append_nil,
      List.append_assoc, List.cons_append]
    apply main
    by_cases hd : d = .sqlite ∨ d = .postgres
    · simp [hd, optKw, kws, isKw]
    · simp only [hd, if_false, List.nil_append]
      have : kws [b!"GENERATED", b!"ALWAYS"] (.word b!"AS" :: .punct '(' :: (e ++ .punct ')' ::
          ((if s then [.word (if d = .sqlserver then b!"PERSISTED" else b!"STORED")] else []) ++
            rest))) = none := by
        simp [kws, isKw, toLower, lowerC]
      simp only [optKw, this]
      simp [kws, isKw]

/-! ## Names and references -/

/-- The tokens of a name with an optional schema. -/
def qnameToks (d : Dialect) (n : Name) : List Tok :=
  (n.1.toList.flatMap fun s => [identTok d s, .punct '.']) ++ [identTok d n.2]

theorem readName_qname (d : Dialect) (n : Name) (hs : ∀ s ∈ n.1, PlainName d s)
    (hn : PlainName d n.2) (rest : List Tok) (hr : rest.head? ≠ some (.punct '.')) :
    readName d (keywords d) (qnameToks d n ++ rest) = some (n.1, n.2, rest) := by
  obtain ⟨o, n⟩ := n
  have e2 := nameOf_identTok d n hn
  cases o with
  | none =>
    simp only [qnameToks, Option.toList_none, List.flatMap_nil, List.nil_append, List.cons_append]
    cases rest with
    | nil => simp [readName, e2]
    | cons t r =>
      simp at hr
      unfold readName
      split
      · rename_i heq; simp at heq; exact absurd heq.2.1 hr
      · rename_i heq; simp at heq; simp [← heq.1, e2, ← heq.2]
      · rename_i heq; simp at heq
  | some s =>
    have e1 := nameOf_identTok d s (hs s rfl)
    simp [qnameToks, readName, e1, e2]

theorem flat_qname (d : Dialect) (n : Name) : flat 0 (qnameToks d n) := by
  obtain ⟨o, n⟩ := n
  cases o with
  | none => exact flat_ident d n
  | some s =>
    apply flat_append0 [identTok d s, .punct '.'] [identTok d n] _ (flat_ident d n)
    have h1 := identTok_not_punct d s
    simp [flat, h1, deeper]

/-- How a rule is written after ON UPDATE or ON DELETE. -/
def ruleToks (ev : Str) (r : Rule) : List Tok :=
  if r = .noAction then []
  else .word b!"ON" :: .word ev :: ((ruleWords.lookup r).getD []).map Tok.word

theorem readOn_eq (ev : Str) (r : Rule) (rest : List Tok) (h : kws [b!"ON", ev] rest = none) :
    readOn ev (ruleToks ev r ++ rest) = some (r, rest) := by
  by_cases hr : r = .noAction
  · subst hr
    simp [ruleToks, readOn, h]
  · have e : kws [b!"ON", ev] (.word b!"ON" :: .word ev ::
        (((ruleWords.lookup r).getD []).map Tok.word ++ rest)) =
        some (((ruleWords.lookup r).getD []).map Tok.word ++ rest) := kws_self [b!"ON", ev] _
    simp only [ruleToks, hr, if_false, List.cons_append, readOn, e]
    cases r <;> first | exact absurd rfl hr | rfl

theorem headIn_rule (ev : Str) (r : Rule) : HeadIn [b!"ON"] (ruleToks ev r) := by
  unfold ruleToks
  split
  · exact headIn_nil _
  · exact headIn_word _ _ _ (by simp)

theorem flat_words (ws : List Str) : flat 0 (ws.map Tok.word) := by
  induction ws with
  | nil => rfl
  | cons w r ih => simpa [flat, deeper] using ih

theorem flat_rule (ev : Str) (r : Rule) : flat 0 (ruleToks ev r) := by
  unfold ruleToks
  split
  · rfl
  · exact flat_words (b!"ON" :: ev :: (ruleWords.lookup r).getD [])

/-- The tokens of a reference. -/
def refToks (d : Dialect) (x : Ref) : List Tok :=
  .word b!"REFERENCES" :: (qnameToks d x.table ++ .punct '(' :: (colToks d x.cols ++ .punct ')' ::
    (ruleToks b!"UPDATE" x.onUpdate ++ ruleToks b!"DELETE" x.onDelete)))

/-- The names in a reference are read back. -/
structure PlainRef (d : Dialect) (x : Ref) : Prop where
  schema : ∀ s ∈ x.table.1, PlainName d s
  table : PlainName d x.table.2
  matching : x.matching = none
  some : x.cols ≠ []
  cols : ∀ c ∈ x.cols, PlainName d c

theorem readRef_eq {hs : List Str} (d : Dialect) (x : Ref) (hx : PlainRef d x) (rest : List Tok)
    (h : HeadIn hs rest)
    (hk : hs.all (fun x => toLower x != b!"on" && toLower x != b!"match") = true) :
    readRef d (keywords d) (refToks d x ++ rest) = some (x, rest) := by
  simp only [List.all_eq_true, Bool.and_eq_true] at hk
  have hno : ∀ ev, kws [b!"ON", ev] rest = none := fun ev => kws_none h _ _
    (by simp only [List.all_eq_true]; exact fun x hx => (hk x hx).1)
  have hm : readMatch (ruleToks b!"UPDATE" x.onUpdate ++ (ruleToks b!"DELETE" x.onDelete ++ rest)) =
      (none, ruleToks b!"UPDATE" x.onUpdate ++ (ruleToks b!"DELETE" x.onDelete ++ rest)) := by
    have hh : HeadIn (b!"ON" :: hs) (ruleToks b!"UPDATE" x.onUpdate ++
        (ruleToks b!"DELETE" x.onDelete ++ rest)) :=
      ((headIn_rule _ _).mono (by simp)).append (((headIn_rule _ _).mono (by simp)).append
        (h.mono (by intro a ha; simp [ha])))
    have : kws [b!"MATCH"] (ruleToks b!"UPDATE" x.onUpdate ++ (ruleToks b!"DELETE" x.onDelete ++
        rest)) = none := by
      apply kws_none hh
      simp only [List.all_cons, List.all_eq_true, Bool.and_eq_true]
      exact ⟨by decide, fun x hx => (hk x hx).2⟩
    simp [readMatch, this]
  have h2 : kws [b!"ON", b!"UPDATE"] (ruleToks b!"DELETE" x.onDelete ++ rest) = none := by
    unfold ruleToks
    split
    · simpa using hno _
    · simp [kws, isKw, toLower, lowerC]
  have e1 : kws [b!"REFERENCES"] (refToks d x ++ rest) =
      Option.some (qnameToks d x.table ++ .punct '(' :: (colToks d x.cols ++ .punct ')' ::
        (ruleToks b!"UPDATE" x.onUpdate ++ (ruleToks b!"DELETE" x.onDelete ++ rest)))) := by
    have := kws_self [b!"REFERENCES"] (qnameToks d x.table ++ .punct '(' ::
      (colToks d x.cols ++ .punct ')' ::
        (ruleToks b!"UPDATE" x.onUpdate ++ (ruleToks b!"DELETE" x.onDelete ++ rest))))
    simpa [refToks, List.append_assoc] using this
  unfold readRef
  rw [e1]
  simp only [Option.bind_some]
  rw [readName_qname d x.table hx.schema hx.table _ (by simp)]
  simp only [Option.bind_some]
  rw [readCols_eq d x.cols hx.some hx.cols]
  simp only [Option.bind_some]
  rw [hm]
  simp only
  rw [readOn_eq _ _ _ h2]
  simp only [Option.bind_some]
  rw [readOn_eq _ _ _ (hno _)]
  simp [← hx.matching]

theorem flat_ref (d : Dialect) (x : Ref) : flat 0 (refToks d x) := by
  apply flat_append0 [.word b!"REFERENCES"] _ (by rfl)
  apply flat_append0 _ _ (flat_qname d _)
  rw [flat_brackets _ _ (bal_colToks d _)]
  exact flat_append0 _ _ (flat_rule _ _) (flat_rule _ _)

theorem readColRef_eq {hs : List Str} (d : Dialect) (o : Option Ref) (hx : ∀ x ∈ o, PlainRef d x)
    (rest : List Tok) (h : HeadIn hs rest)
    (hk : hs.all (fun x => (toLower x != b!"on" && toLower x != b!"match") &&
      toLower x != b!"references") = true) :
    readColRef d (keywords d) ((o.toList.flatMap (refToks d)) ++ rest) = some (o, rest) := by
  simp only [List.all_eq_true] at hk
  have hk : ∀ x ∈ hs, (toLower x != b!"on" && toLower x != b!"match") = true ∧
      (toLower x != b!"references") = true := fun x hx => by
    have := hk x hx; simpa only [Bool.and_eq_true] using this
  unfold readColRef
  cases o with
  | none =>
    have : kws [b!"REFERENCES"] rest = none :=
      kws_none h _ _ (by simp only [List.all_eq_true]; exact fun x hx => (hk x hx).2)
    simp [this]
  | some x =>
    have e := readRef_eq d x (hx x rfl) rest h
      (by simp only [List.all_eq_true]; exact fun x hx => (hk x hx).1)
    have e1 : (kws [b!"REFERENCES"] (refToks d x ++ rest)).isSome := by
      have := kws_self [b!"REFERENCES"] ((refToks d x).tail ++ rest)
      simp only [refToks, List.tail_cons, List.map_cons, List.map_nil, List.cons_append,
        List.nil_append] at this ⊢
      rw [this]; rfl
    simp only [Option.toList_some, List.flatMap_cons, List.flatMap_nil, List.append_nil]
    cases e2 : kws [b!"REFERENCES"] (refToks d x ++ rest) with
    | none => rw [e2] at e1; cases e1
    | some r => simp [e]

/-! ## Columns -/

/-- The word for AUTO_INCREMENT. -/
def autoWord (d : Dialect) : Str := if d = .mysql then b!"AUTO_INCREMENT" else b!"AUTOINCREMENT"

/-- `if b then` the words. -/
def optWords (b : Bool) (ws : List Str) : List Tok := if b then ws.map Tok.word else []

/-- The tokens after the type. -/
def colTail (d : Dialect) (c : Col) : List Tok :=
  optWords c.primary [b!"PRIMARY", b!"KEY"] ++ (optWords c.autoincrement [autoWord d] ++
  (optWords c.notNull [b!"NOT", b!"NULL"] ++ (optWords c.unique [b!"UNIQUE"] ++
  (c.identity.getD [] ++
  ((c.default.toList.flatMap fun ts => .word b!"DEFAULT" :: ts) ++
  (optWords c.onUpdateNow [b!"ON", b!"UPDATE", b!"CURRENT_TIMESTAMP"] ++
  ((c.collation.toList.flatMap fun t => [.word b!"COLLATE", t]) ++
  (genToks d c.generated ++
  ((c.ref.toList.flatMap (refToks d)) ++
  (optWords c.deferrable [b!"DEFERRABLE"] ++
  optWords c.initiallyDeferred [b!"INITIALLY", b!"DEFERRED"]))))))))))

/-- A column that can be written: `ty` are the tokens of its type. -/
structure Col.Ok (d : Dialect) (c : Col) (ty : List Tok) : Prop where
  name : PlainName d c.name
  type : ty.map foldTok = c.type
  flatType : flat 0 ty
  quietType : quiet stops 0 ty
  identity : ∀ i ∈ c.identity, i ∈ identities d
  flatDefault : ∀ x ∈ c.default, flat 0 x
  quietDefault : ∀ x ∈ c.default, quiet stops 0 x
  generated : ∀ p ∈ c.generated, bal 0 p.1
  collation : ∀ t ∈ c.collation, ∀ p, t ≠ .punct p
  ref : ∀ x ∈ c.ref, PlainRef d x
  deferrable : c.ref = none → c.deferrable = false
  initially : c.ref = none → c.initiallyDeferred = false
  allowed : c.allowed d

theorem headIn_optWords {ks : List Str} (b : Bool) (w : Str) (ws : List Str) (h : w ∈ ks) :
    HeadIn ks (optWords b (w :: ws)) := headIn_ite b w (ws.map Tok.word) h

theorem headIn_default {ks : List Str} (o : Option (List Tok)) (h : b!"DEFAULT" ∈ ks) :
    HeadIn ks (o.toList.flatMap fun ts => .word b!"DEFAULT" :: ts) := by
  cases o with
  | none => exact headIn_nil _
  | some t => exact headIn_word _ _ _ h

theorem headIn_collation {ks : List Str} (o : Option Tok) (h : b!"COLLATE" ∈ ks) :
    HeadIn ks (o.toList.flatMap fun t => [.word b!"COLLATE", t]) := by
  cases o with
  | none => exact headIn_nil _
  | some t => exact headIn_word _ _ _ h

theorem headIn_ref {ks : List Str} (d : Dialect) (o : Option Ref) (h : b!"REFERENCES" ∈ ks) :
    HeadIn ks (o.toList.flatMap (refToks d)) := by
  cases o with
  | none => exact headIn_nil _
  | some t => exact headIn_word _ _ _ h

theorem headIn_identity {d : Dialect} {o : Option (List Tok)} (h : ∀ i ∈ o, i ∈ identities d) :
    HeadIn [b!"GENERATED", b!"IDENTITY"] (o.getD []) := by
  cases o with
  | none => exact headIn_nil _
  | some i =>
    have := h i rfl
    cases d <;> simp [identities] at this
    · rcases this with rfl | rfl <;> exact headIn_word _ _ _ (by decide)
    · subst this; exact headIn_word _ _ _ (by decide)

theorem readDefault_eq' {hs : List Str} (o : Option (List Tok)) (rest : List Tok)
    (hf : ∀ x ∈ o, flat 0 x) (hq : ∀ x ∈ o, quiet stops 0 x) (h : HeadIn hs rest)
    (hk : hs.all (fun x => stops.contains x && toLower x != b!"default") = true) :
    readDefault ((o.toList.flatMap fun ts => .word b!"DEFAULT" :: ts) ++ rest) = (o, rest) := by
  cases o with
  | none => simpa using readDefault_eq false [] rest rfl rfl h hk
  | some x => simpa using readDefault_eq true x rest (hf x rfl) (hq x rfl) h hk

/-- No identity clause begins here. -/
theorem noIdentity (d : Dialect) (g : Option (List Tok × Bool)) (a b : List Tok) {hs : List Str}
    (ha : HeadIn [b!"DEFAULT", b!"ON", b!"COLLATE"] a) (hb : HeadIn hs b)
    (hk : hs.all (fun x => toLower x != b!"generated") = true) (k : Str) (ks : List Str)
    (hks : (k = b!"ALWAYS" ∧ ks = [b!"AS", b!"IDENTITY"]) ∨ k = b!"BY") :
    kws (b!"GENERATED" :: k :: ks) (a ++ (genToks d g ++ b)) = none := by
  rcases ha with rfl | ⟨w, r, rfl, hw⟩
  · cases g with
    | none => exact kws_none hb _ _ hk
    | some p =>
      by_cases hd : d = .sqlite ∨ d = .postgres
      · rcases hks with ⟨rfl, rfl⟩ | rfl <;>
          simp [genToks, hd, kws, isKw, toLower, lowerC]
      · rcases hks with ⟨rfl, rfl⟩ | rfl <;>
          simp [genToks, hd, kws, isKw, toLower, lowerC]
  · apply kws_none (headIn_word _ w _ hw)
    decide

theorem readIdentity_eq (d : Dialect) (o : Option (List Tok)) (ho : ∀ i ∈ o, i ∈ identities d)
    (g : Option (List Tok × Bool)) (a b : List Tok) {hs : List Str}
    (ha : HeadIn [b!"DEFAULT", b!"ON", b!"COLLATE"] a) (hb : HeadIn hs b)
    (hk : hs.all (fun x => ![b!"generated", b!"identity"].contains (toLower x)) = true) :
    readIdentity d (o.getD [] ++ (a ++ (genToks d g ++ b))) = (o, a ++ (genToks d g ++ b)) := by
  simp only [List.all_eq_true] at hk
  have hk1 : hs.all (fun x => toLower x != b!"generated") = true := by
    simp only [List.all_eq_true]; intro x hx; have := hk x hx; simp at this; simp [this]
  have hk2 : hs.all (fun x => toLower x != b!"identity") = true := by
    simp only [List.all_eq_true]; intro x hx; have := hk x hx; simp at this; simp [this]
  have hh : HeadIn ([b!"DEFAULT", b!"ON", b!"COLLATE", b!"GENERATED", b!"AS"] ++ hs)
      (a ++ (genToks d g ++ b)) :=
    (ha.mono (by simp)).append
      (((headIn_gen d g).mono (by simp)).append
        (hb.mono (List.subset_append_right _ _)))
  unfold readIdentity
  by_cases hp : d = .postgres
  · subst hp
    simp only [if_true]
    cases o with
    | none =>
      have e1 := noIdentity .postgres g a b ha hb hk1 b!"ALWAYS" [b!"AS", b!"IDENTITY"] (by simp)
      have e2 := noIdentity .postgres g a b ha hb hk1 b!"BY" [b!"DEFAULT", b!"AS", b!"IDENTITY"]
        (by simp)
      simp only [Option.getD_none, List.nil_append, e1, e2]
    | some i =>
      have := ho i rfl
      simp only [identities, List.mem_cons, List.not_mem_nil, or_false] at this
      rcases this with rfl | rfl
      · have e1 := kws_self [b!"GENERATED", b!"ALWAYS", b!"AS", b!"IDENTITY"]
          (a ++ (genToks .postgres g ++ b))
        simp only [Option.getD_some, e1]
        simp
      · have e1 := kws_self [b!"GENERATED", b!"BY", b!"DEFAULT", b!"AS", b!"IDENTITY"]
          (a ++ (genToks .postgres g ++ b))
        have e2 : kws [b!"GENERATED", b!"ALWAYS", b!"AS", b!"IDENTITY"]
            ([b!"GENERATED", b!"BY", b!"DEFAULT", b!"AS", b!"IDENTITY"].map Tok.word ++
              (a ++ (genToks .postgres g ++ b))) = none := by
          simp [kws, isKw, toLower, lowerC]
        simp only [Option.getD_some, e1, e2]
        simp
  · simp only [hp, if_false]
    by_cases hq : d = .sqlserver
    · subst hq
      simp only [if_true]
      cases o with
      | none =>
        have : kws [b!"IDENTITY"] (a ++ (genToks .sqlserver g ++ b)) = none := by
          apply kws_none hh
          rw [List.all_append]
          exact Bool.and_eq_true_iff.2 ⟨by decide, hk2⟩
        simp only [Option.getD_none, List.nil_append, this]
      | some i =>
        have := ho i rfl
        simp only [identities, List.mem_cons, List.not_mem_nil, or_false] at this
        subst this
        have e1 := kws_self [b!"IDENTITY"] (a ++ (genToks .sqlserver g ++ b))
        have e2 : inBrackets (a ++ (genToks .sqlserver g ++ b)) = none := by
          rcases hh with h | ⟨w, r, h, _⟩
          · rw [h]; rfl
          · rw [h]; simp [inBrackets]
        simp only [List.map_cons, List.map_nil] at e1
        simp only [Option.getD_some, e1, e2]
        simp
    · simp only [hq, if_false]
      cases o with
      | none => simp
      | some i =>
        have := ho i rfl
        cases d <;> simp_all [identities]

theorem readCol_eq (d : Dialect) (c : Col) (ty : List Tok) (h : c.Ok d ty) :
    readCol d (keywords d) (identTok d c.name :: (ty ++ colTail d c)) = some c := by
  -- the heads of the tails
  have h11 : HeadIn [b!"DEFERRABLE", b!"INITIALLY"] (optWords c.deferrable [b!"DEFERRABLE"] ++
      optWords c.initiallyDeferred [b!"INITIALLY", b!"DEFERRED"]) :=
    (headIn_optWords _ _ _ (by simp)).append (headIn_optWords _ _ _ (by simp))
  have h10 : HeadIn [b!"REFERENCES"] ((c.ref.toList.flatMap (refToks d)) ++
      (optWords c.deferrable [b!"DEFERRABLE"] ++
      optWords c.initiallyDeferred [b!"INITIALLY", b!"DEFERRED"])) := by
    cases e : c.ref with
    | none => simp [h.deferrable e, h.initially e, optWords, headIn_nil]
    | some x => exact headIn_word _ _ _ (by simp)
  have hg := headIn_gen d c.generated
  have h9 := (hg.mono (ks' := [b!"GENERATED", b!"AS", b!"REFERENCES"]) (by simp)).append
    (h10.mono (by simp))
  have h8 := (headIn_collation (ks := [b!"COLLATE", b!"GENERATED", b!"AS", b!"REFERENCES"])
    c.collation (by simp)).append (h9.mono (by simp))
  have h7 := (headIn_optWords (ks := [b!"ON", b!"COLLATE", b!"GENERATED", b!"AS", b!"REFERENCES"])
    c.onUpdateNow b!"ON" [b!"UPDATE", b!"CURRENT_TIMESTAMP"] (by simp)).append (h8.mono (by simp))
  have h6 := (headIn_default (ks := [b!"DEFAULT", b!"ON", b!"COLLATE", b!"GENERATED", b!"AS",
    b!"REFERENCES"]) c.default (by simp)).append (h7.mono (by simp))
  have h5 := ((headIn_identity h.identity).mono (ks' := [b!"IDENTITY", b!"DEFAULT", b!"ON",
    b!"COLLATE", b!"GENERATED", b!"AS", b!"REFERENCES"]) (by simp)).append (h6.mono (by simp))
  have h4 := (headIn_optWords (ks := [b!"UNIQUE", b!"IDENTITY", b!"DEFAULT", b!"ON",
    b!"COLLATE", b!"GENERATED", b!"AS", b!"REFERENCES"]) c.unique b!"UNIQUE" [] (by simp)).append
    (h5.mono (by simp))
  have h3 := (headIn_optWords (ks := [b!"NOT", b!"UNIQUE", b!"IDENTITY", b!"DEFAULT", b!"ON",
    b!"COLLATE", b!"GENERATED", b!"AS", b!"REFERENCES"]) c.notNull b!"NOT" [b!"NULL"]
    (by simp)).append (h4.mono (by simp))
  have haw : autoWord d = b!"AUTO_INCREMENT" ∨ autoWord d = b!"AUTOINCREMENT" := by
    unfold autoWord; split <;> simp
  have h2 := (headIn_optWords (ks := [b!"AUTO_INCREMENT", b!"AUTOINCREMENT", b!"NOT", b!"UNIQUE",
    b!"IDENTITY", b!"DEFAULT", b!"ON", b!"COLLATE", b!"GENERATED", b!"AS", b!"REFERENCES"])
    c.autoincrement (autoWord d) [] (by rcases haw with e | e <;> simp [e])).append
    (h3.mono (by simp))
  have h1 := (headIn_optWords (ks := [b!"PRIMARY", b!"AUTO_INCREMENT", b!"AUTOINCREMENT", b!"NOT",
    b!"UNIQUE", b!"IDENTITY", b!"DEFAULT", b!"ON", b!"COLLATE", b!"GENERATED", b!"AS",
    b!"REFERENCES"]) c.primary b!"PRIMARY" [b!"KEY"] (by simp)).append (h2.mono (by simp))
  -- the steps of the reader
  have s0 := untilWord_eq stops 0 ty (colTail d c) h.flatType h.quietType
    (headIn_stop h1 (by decide))
  have s1 := optKw_eq b!"PRIMARY" [b!"KEY"] c.primary _ h2 (by decide)
  have s2 : optKw [autoWord d] (optWords c.autoincrement [autoWord d] ++ _) = _ :=
    optKw_eq (autoWord d) [] c.autoincrement _ h3 (by rcases haw with e | e <;> rw [e] <;> decide)
  have s3 := optKw_eq b!"NOT" [b!"NULL"] c.notNull _ h4 (by decide)
  have s4 := optKw_eq b!"UNIQUE" [] c.unique _ h5 (by decide)
  have hid : HeadIn [b!"DEFAULT", b!"ON", b!"COLLATE"]
      ((c.default.toList.flatMap fun ts => .word b!"DEFAULT" :: ts) ++
      (optWords c.onUpdateNow [b!"ON", b!"UPDATE", b!"CURRENT_TIMESTAMP"] ++
      (c.collation.toList.flatMap fun t => [.word b!"COLLATE", t]))) :=
    (headIn_default _ (by simp)).append
      ((headIn_optWords _ _ _ (by simp)).append (headIn_collation _ (by simp)))
  have s5 := readIdentity_eq d c.identity h.identity c.generated _ _ hid h10 (by decide)
  simp only [List.append_assoc] at s5
  have s6 := readDefault_eq' c.default _ h.flatDefault h.quietDefault h7 (by decide)
  have s7 := optKw_eq b!"ON" [b!"UPDATE", b!"CURRENT_TIMESTAMP"] c.onUpdateNow _ h8 (by decide)
  have s8 := readCollation_eq c.collation _ h9 (by decide)
  have s9 := readGenerated_eq d c.generated _ h.generated h10 (by decide)
  have s10 := readColRef_eq d c.ref h.ref _ h11 (by decide)
  have s11 := optKw_eq b!"DEFERRABLE" [] c.deferrable _
    (headIn_optWords (ks := [b!"INITIALLY"]) c.initiallyDeferred b!"INITIALLY" [b!"DEFERRED"]
      (by simp)) (by decide)
  have s12 := optKw_eq (hs := []) b!"INITIALLY" [b!"DEFERRED"] c.initiallyDeferred [] (headIn_nil _)
    (by decide)
  simp only [List.append_nil] at s12
  simp only [← optWords.eq_1] at s1 s3 s4 s7 s11 s12
  unfold readCol
  simp only [nameOf_identTok d c.name h.name, Option.bind_some, s0]
  unfold colTail
  simp only [s1]
  rw [show (if d = .mysql then b!"AUTO_INCREMENT" else b!"AUTOINCREMENT") = autoWord d from rfl]
  simp only [s2, s3, s4, s5, s6, s7, s8, s9, s10, Option.bind_some, s11, s12, h.type]
  have := h.allowed
  simp [this]

end DdlText
