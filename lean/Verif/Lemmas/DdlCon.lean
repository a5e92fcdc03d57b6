import Verif.Lemmas.DdlRead

/-!
# Reading constraints
-/

namespace DdlText
open SqlSpec Go Sqddl
open WipeSpec (kws readName)

/-- `(a, b)` -/
def groupToks (d : Dialect) (cols : List Str) : List Tok :=
  .punct '(' :: (colToks d cols ++ [.punct ')'])

theorem readCols_group (d : Dialect) (cols : List Str) (h0 : cols ≠ [])
    (h : ∀ c ∈ cols, PlainName d c) (r : List Tok) :
    readCols d (keywords d) (groupToks d cols ++ r) = some (cols, r) := by
  have := readCols_eq d cols h0 h r
  simpa [groupToks] using this

theorem flat_group (d : Dialect) (cols : List Str) : flat 0 (groupToks d cols) := by
  unfold groupToks
  rw [flat_brackets _ _ (bal_colToks d cols)]; rfl

/-- The tokens of `element WITH operator`. -/
def elemToks (p : List Tok × List Tok) : List Tok := p.1 ++ .word b!"WITH" :: p.2

/-- The tokens of a kind of constraint. -/
def kindToks (d : Dialect) : ConKind → List Tok
  | .primary cols => .word b!"PRIMARY" :: .word b!"KEY" :: groupToks d cols
  | .unique cols => .word b!"UNIQUE" :: groupToks d cols
  | .foreign cols ref =>
    .word b!"FOREIGN" :: .word b!"KEY" :: (groupToks d cols ++ refToks d ref)
  | .check e => .word b!"CHECK" :: .punct '(' :: (e ++ [.punct ')'])
  | .exclude m es p =>
    .word b!"EXCLUDE" :: ((m.toList.flatMap fun x => [.word b!"USING", .word x]) ++
      .punct '(' :: (commaSep (es.map elemToks) ++ .punct ')' ::
        (p.toList.flatMap fun x => .word b!"WHERE" :: .punct '(' :: (x ++ [.punct ')']))))

/-- The conditions under which a kind of constraint is read back. -/
def KindOk (d : Dialect) : ConKind → Prop
  | .primary cols => cols ≠ [] ∧ ∀ c ∈ cols, PlainName d c
  | .unique cols => cols ≠ [] ∧ ∀ c ∈ cols, PlainName d c
  | .foreign cols ref => (cols ≠ [] ∧ ∀ c ∈ cols, PlainName d c) ∧ PlainRef d ref
  | .check e => bal 0 e
  | .exclude _ es p => es ≠ [] ∧
      (∀ x ∈ es, flat 0 x.1 ∧ quiet [b!"WITH"] 0 x.1 ∧ flat 0 x.2) ∧ ∀ x ∈ p, bal 0 x

/-- Methods are compared without regard to case. -/
def foldKind : ConKind → ConKind
  | .exclude m es p => .exclude (m.map toLower) es p
  | k => k

theorem readUsing_eq {hs : List Str} (m : Option Str) (rest : List Tok)
    (h : HeadIn hs rest ∨ rest.head? = some (.punct '('))
    (hk : hs.all (fun x => toLower x != b!"using") = true) :
    readUsing ((m.toList.flatMap fun x => [.word b!"USING", .word x]) ++ rest) =
      (m.map toLower, rest) := by
  unfold readUsing
  cases m with
  | none =>
    have : kws [b!"USING"] rest = none := by
      rcases h with h | h
      · exact kws_none h _ _ hk
      · cases rest with
        | nil => rfl
        | cons t r => simp at h; subst h; rfl
    simp [this]
  | some x =>
    have : kws [b!"USING"] (.word b!"USING" :: .word x :: rest) = some (.word x :: rest) :=
      kws_self [b!"USING"] _
    simp [this]

theorem flat_elem (p : List Tok × List Tok) (h1 : flat 0 p.1) (h2 : flat 0 p.2) :
    flat 0 (elemToks p) := flat_append0 _ _ h1 (by simpa [flat, deeper] using h2)

theorem readElem_eq (p : List Tok × List Tok) (h1 : flat 0 p.1) (h2 : quiet [b!"WITH"] 0 p.1) :
    readElem (elemToks p) = some p := by
  have e := untilWord_eq [b!"WITH"] 0 p.1 (.word b!"WITH" :: p.2) h1 h2
    (Or.inr ⟨_, _, rfl, by simp [isKw]⟩)
  have e2 : kws [b!"WITH"] (.word b!"WITH" :: p.2) = some p.2 := kws_self [b!"WITH"] _
  unfold readElem elemToks
  rw [e, e2]
  rfl

theorem readExclude_eq {hs : List Str} (m : Option Str) (es : List (List Tok × List Tok))
    (p : Option (List Tok)) (rest : List Tok) (h0 : es ≠ [])
    (he : ∀ x ∈ es, flat 0 x.1 ∧ quiet [b!"WITH"] 0 x.1 ∧ flat 0 x.2) (hp : ∀ x ∈ p, bal 0 x)
    (h : HeadIn hs rest) (hk : hs.all (fun x => toLower x != b!"where") = true) :
    readExclude ((m.toList.flatMap fun x => [.word b!"USING", .word x]) ++
      .punct '(' :: (commaSep (es.map elemToks) ++ .punct ')' ::
        ((p.toList.flatMap fun x => .word b!"WHERE" :: .punct '(' :: (x ++ [.punct ')'])) ++ rest))) =
      some (.exclude (m.map toLower) es p, rest) := by
  have hfl : ∀ x ∈ es.map elemToks, flat 0 x := by
    intro x hx
    simp only [List.mem_map] at hx
    obtain ⟨y, hy, rfl⟩ := hx
    exact flat_elem y (he y hy).1 (he y hy).2.2
  have hw : readWhere ((p.toList.flatMap fun x => .word b!"WHERE" :: .punct '(' ::
      (x ++ [.punct ')'])) ++ rest) = some (p, rest) := by
    unfold readWhere
    cases p with
    | none => simp [kws_none h b!"WHERE" [] hk]
    | some x =>
      have e : kws [b!"WHERE"] (.word b!"WHERE" :: .punct '(' :: (x ++ .punct ')' :: rest)) =
          some (.punct '(' :: (x ++ .punct ')' :: rest)) := kws_self [b!"WHERE"] _
      simp [e, inBrackets_eq x rest (hp x rfl)]
  unfold readExclude
  rw [readUsing_eq (hs := []) m _ (Or.inr rfl) rfl]
  simp only
  rw [inBrackets_eq _ _ (bal_commaSep _ hfl)]
  simp only [Option.bind_some]
  rw [splitTop_commaSep _ (by simpa using h0) hfl,
    mapM_map_some (k := id) readElem elemToks es fun x hx =>
      readElem_eq x (he x hx).1 (he x hx).2.1]
  simp only [Option.bind_some, hw, List.map_id]
  rfl

theorem readKind_eq {hs : List Str} (d : Dialect) (k : ConKind) (hko : KindOk d k)
    (rest : List Tok) (h : HeadIn hs rest)
    (hk : hs.all (fun x => ![b!"on", b!"match", b!"where"].contains (toLower x)) = true) :
    readKind d (keywords d) (kindToks d k ++ rest) = some (foldKind k, rest) := by
  simp only [List.all_eq_true] at hk
  have k1 : hs.all (fun x => toLower x != b!"on" && toLower x != b!"match") = true := by
    simp only [List.all_eq_true]; intro x hx; have := hk x hx; simp at this; simp [this]
  have k2 : hs.all (fun x => toLower x != b!"where") = true := by
    simp only [List.all_eq_true]; intro x hx; have := hk x hx; simp at this; simp [this]
  unfold readKind
  cases k with
  | primary cols =>
    have e : kws [b!"PRIMARY", b!"KEY"] (kindToks d (.primary cols) ++ rest) =
        some (groupToks d cols ++ rest) := kws_self [b!"PRIMARY", b!"KEY"] _
    simp [e, readCols_group d cols hko.1 hko.2, foldKind]
  | unique cols =>
    have e0 : kws [b!"PRIMARY", b!"KEY"] (kindToks d (.unique cols) ++ rest) = none := by
      simp [kindToks, kws, isKw, toLower, lowerC]
    have e : kws [b!"UNIQUE"] (kindToks d (.unique cols) ++ rest) =
        some (groupToks d cols ++ rest) := kws_self [b!"UNIQUE"] _
    simp [e0, e, readCols_group d cols hko.1 hko.2, foldKind]
  | «foreign» cols ref =>
    have e0 : kws [b!"PRIMARY", b!"KEY"] (kindToks d (.foreign cols ref) ++ rest) = none := by
      simp [kindToks, kws, isKw, toLower, lowerC]
    have e1 : kws [b!"UNIQUE"] (kindToks d (.foreign cols ref) ++ rest) = none := by
      simp [kindToks, kws, isKw, toLower, lowerC]
    have e : kws [b!"FOREIGN", b!"KEY"] (kindToks d (.foreign cols ref) ++ rest) =
        some (groupToks d cols ++ (refToks d ref ++ rest)) := by
      have := kws_self [b!"FOREIGN", b!"KEY"] (groupToks d cols ++ (refToks d ref ++ rest))
      simpa [kindToks, List.append_assoc] using this
    simp [e0, e1, e, readCols_group d cols hko.1.1 hko.1.2, readRef_eq d ref hko.2 rest h k1, foldKind]
  | check x =>
    have e0 : kws [b!"PRIMARY", b!"KEY"] (kindToks d (.check x) ++ rest) = none := by
      simp [kindToks, kws, isKw, toLower, lowerC]
    have e1 : kws [b!"UNIQUE"] (kindToks d (.check x) ++ rest) = none := by
      simp [kindToks, kws, isKw, toLower, lowerC]
    have e2 : kws [b!"FOREIGN", b!"KEY"] (kindToks d (.check x) ++ rest) = none := by
      simp [kindToks, kws, isKw, toLower, lowerC]
    have e : kws [b!"CHECK"] (kindToks d (.check x) ++ rest) =
        some (.punct '(' :: (x ++ .punct ')' :: rest)) := by
      have := kws_self [b!"CHECK"] (.punct '(' :: (x ++ .punct ')' :: rest))
      simpa [kindToks, List.append_assoc] using this
    simp [e0, e1, e2, e, inBrackets_eq x rest hko, foldKind]
  | exclude m es p =>
    have e0 : kws [b!"PRIMARY", b!"KEY"] (kindToks d (.exclude m es p) ++ rest) = none := by
      simp [kindToks, kws, isKw, toLower, lowerC]
    have e1 : kws [b!"UNIQUE"] (kindToks d (.exclude m es p) ++ rest) = none := by
      simp [kindToks, kws, isKw, toLower, lowerC]
    have e2 : kws [b!"FOREIGN", b!"KEY"] (kindToks d (.exclude m es p) ++ rest) = none := by
      simp [kindToks, kws, isKw, toLower, lowerC]
    have e3 : kws [b!"CHECK"] (kindToks d (.exclude m es p) ++ rest) = none := by
      simp [kindToks, kws, isKw, toLower, lowerC]
    have e := kws_self [b!"EXCLUDE"] ((m.toList.flatMap fun x => [.word b!"USING", .word x]) ++
      .punct '(' :: (commaSep (es.map elemToks) ++ .punct ')' ::
        ((p.toList.flatMap fun x => .word b!"WHERE" :: .punct '(' :: (x ++ [.punct ')'])) ++ rest)))
    have e' : kindToks d (.exclude m es p) ++ rest = [b!"EXCLUDE"].map Tok.word ++
        ((m.toList.flatMap fun x => [.word b!"USING", .word x]) ++
      .punct '(' :: (commaSep (es.map elemToks) ++ .punct ')' ::
        ((p.toList.flatMap fun x => .word b!"WHERE" :: .punct '(' :: (x ++ [.punct ')'])) ++
          rest))) := by
      simp [kindToks, List.append_assoc]
    rw [e0, e1, e2, e3, e', e]
    exact readExclude_eq m es p rest hko.1 hko.2.1 hko.2.2 h k2

/-- The tokens of a constraint. -/
def conToks (d : Dialect) (c : Con) : List Tok :=
  (c.name.toList.flatMap fun n => [.word b!"CONSTRAINT", identTok d n]) ++ (kindToks d c.kind ++
    (optWords c.deferrable [b!"DEFERRABLE"] ++
    optWords c.initiallyDeferred [b!"INITIALLY", b!"DEFERRED"]))

/-- The conditions under which a constraint is read back. -/
structure Con.Ok (d : Dialect) (c : Con) : Prop where
  name : ∀ n ∈ c.name, PlainName d n
  kind : KindOk d c.kind
  valid : c.notValid = false

theorem kindToks_head (d : Dialect) (k : ConKind) :
    HeadIn [b!"PRIMARY", b!"UNIQUE", b!"FOREIGN", b!"CHECK", b!"EXCLUDE"] (kindToks d k) := by
  cases k <;> exact headIn_word _ _ _ (by simp)

/-- A constraint is read back, with or without NOT VALID. -/
theorem readCon_valid (d : Dialect) (c : Con) (h : c.Ok d) (v : Bool) :
    readCon d (keywords d) (conToks d c ++ optWords v [b!"NOT", b!"VALID"]) =
      some { c with kind := foldKind c.kind, notValid := v } := by
  have hd : HeadIn [b!"DEFERRABLE", b!"INITIALLY", b!"NOT"] (optWords c.deferrable [b!"DEFERRABLE"] ++
      (optWords c.initiallyDeferred [b!"INITIALLY", b!"DEFERRED"] ++
        optWords v [b!"NOT", b!"VALID"])) :=
    (headIn_optWords _ _ _ (by simp)).append
      ((headIn_optWords _ _ _ (by simp)).append (headIn_optWords _ _ _ (by simp)))
  have s1 : readConName d (keywords d) (conToks d c ++ optWords v [b!"NOT", b!"VALID"]) =
      some (c.name, kindToks d c.kind ++ (optWords c.deferrable [b!"DEFERRABLE"] ++
      (optWords c.initiallyDeferred [b!"INITIALLY", b!"DEFERRED"] ++
        optWords v [b!"NOT", b!"VALID"]))) := by
    unfold readConName conToks
    cases e : c.name with
    | none =>
      have := kws_none (((kindToks_head d c.kind).mono (ks' := [b!"PRIMARY", b!"UNIQUE",
        b!"FOREIGN", b!"CHECK", b!"EXCLUDE", b!"DEFERRABLE", b!"INITIALLY", b!"NOT"]) (by simp)).append
        (hd.mono (by simp))) b!"CONSTRAINT" [] (by decide)
      simp only [Option.toList_none, List.flatMap_nil, List.nil_append, List.append_assoc, this]
    | some n =>
      have := kws_self [b!"CONSTRAINT"] (identTok d n :: (kindToks d c.kind ++
        (optWords c.deferrable [b!"DEFERRABLE"] ++
        (optWords c.initiallyDeferred [b!"INITIALLY", b!"DEFERRED"] ++
          optWords v [b!"NOT", b!"VALID"]))))
      simp only [List.map_cons, List.map_nil, List.cons_append, List.nil_append] at this
      simp only [Option.toList_some, List.flatMap_cons, List.flatMap_nil, List.append_nil,
        List.cons_append, List.nil_append, List.append_assoc, this,
        nameOf_identTok d n (h.name n e), Option.map_some]
  have s2 := readKind_eq d c.kind h.kind _ hd (by decide)
  have s11 := optKw_eq b!"DEFERRABLE" [] c.deferrable _
    ((headIn_optWords (ks := [b!"INITIALLY", b!"NOT"]) c.initiallyDeferred b!"INITIALLY"
      [b!"DEFERRED"] (by simp)).append (headIn_optWords v b!"NOT" [b!"VALID"] (by simp))) (by decide)
  have s12 := optKw_eq b!"INITIALLY" [b!"DEFERRED"] c.initiallyDeferred _
    (headIn_optWords (ks := [b!"NOT"]) v b!"NOT" [b!"VALID"] (by simp)) (by decide)
  have s13 := optKw_eq (hs := []) b!"NOT" [b!"VALID"] v [] (headIn_nil _) (by decide)
  simp only [List.append_nil] at s13
  simp only [← optWords.eq_1] at s11 s12 s13
  unfold readCon
  simp only [s1, Option.bind_some, s2, s11, s12, s13, if_true]

theorem readCon_eq (d : Dialect) (c : Con) (h : c.Ok d) :
    readCon d (keywords d) (conToks d c) = some { c with kind := foldKind c.kind } := by
  have e := readCon_valid d c h false
  have h0 : optWords false [b!"NOT", b!"VALID"] = [] := rfl
  rw [h0, List.append_nil] at e
  rw [e]
  have := h.valid
  obtain ⟨n, k, a, b, v⟩ := c
  simp at this
  simp [this]

theorem bal_flat_group (x : List Tok) (h : bal 0 x) : flat 0 (.punct '(' :: (x ++ [.punct ')'])) := by
  rw [flat_brackets x [] h]; rfl

theorem flat_cons_word (w : Str) (r : List Tok) (h : flat 0 r) : flat 0 (.word w :: r) :=
  flat_append0 [.word w] r (by rfl) h

theorem flat_optWords (b : Bool) (ws : List Str) : flat 0 (optWords b ws) := by
  unfold optWords
  split
  · exact flat_words ws
  · rfl

theorem flat_kind (d : Dialect) (k : ConKind) (h : KindOk d k) : flat 0 (kindToks d k) := by
  cases k with
  | primary cols => exact flat_cons_word _ _ (flat_cons_word _ _ (flat_group d cols))
  | unique cols => exact flat_cons_word _ _ (flat_group d cols)
  | «foreign» cols ref =>
    exact flat_cons_word _ _ (flat_cons_word _ _ (flat_append0 _ _ (flat_group d cols) (flat_ref d ref)))
  | check e => exact flat_cons_word _ _ (bal_flat_group e h)
  | exclude m es p =>
    apply flat_cons_word
    apply flat_append0
    · cases m with
      | none => rfl
      | some x => exact flat_words [b!"USING", x]
    · rw [flat_brackets]
      · cases p with
        | none => rfl
        | some x =>
          simp only [Option.toList_some, List.flatMap_cons, List.flatMap_nil, List.append_nil]
          exact flat_cons_word _ _ (bal_flat_group x (h.2.2 x rfl))
      · apply bal_commaSep
        intro x hx
        simp only [List.mem_map] at hx
        obtain ⟨y, hy, rfl⟩ := hx
        exact flat_elem y (h.2.1 y hy).1 (h.2.1 y hy).2.2

theorem flat_con (d : Dialect) (c : Con) (h : c.Ok d) : flat 0 (conToks d c) := by
  unfold conToks
  apply flat_append0
  · cases c.name with
    | none => rfl
    | some n => exact flat_cons_word _ _ (flat_ident d n)
  · exact flat_append0 _ _ (flat_kind d _ h.kind)
      (flat_append0 _ _ (flat_optWords _ _) (flat_optWords _ _))

end DdlText
