import Verif.Props.IntrospectRows
import Verif.Props.Types
import Verif.Model.Render

/-!
# Filters, versions, types, defaults and checks in introspection
-/

namespace Sqddl.Introspect
open Go SqlSpec DdlSpec Sqddl.PqArray
open Sqddl.Postgres (isLiteral)

/-! ## Filters -/

theorem readMySQL_cons_ne {c : Char} {s : Str} (h : c ≠ '\'') (hb : c ≠ '\\') :
    readMySQLString (c :: s) = (readMySQLString s).map fun (v, t) => (c :: v, t) := by
  cases s with
  | nil => simp [readMySQLString, h]
  | cons d r => simp [readMySQLString, h, hb]

theorem readMySQL_pair {s : Str} :
    readMySQLString ('\'' :: '\'' :: s) = (readMySQLString s).map fun (v, t) => ('\'' :: v, t) := by
  simp [readMySQLString]

theorem readMySQL_end {rest : Str} (h : rest.head? ≠ some '\'') :
    readMySQLString ('\'' :: rest) = some ([], rest) := by
  cases rest with
  | nil => simp [readMySQLString]
  | cons d r => simp at h; simp [readMySQLString, h]

theorem readMySQL_escapeQuote (s rest : Str) (h : rest.head? ≠ some '\'') (hb : '\\' ∉ s) :
    readMySQLString (escapeQuote '\'' s ++ '\'' :: rest) = some (collapse '\'' s, rest) := by
  fun_induction escapeQuote '\'' s with
  | case1 => simp [readMySQL_end h, collapse]
  | case2 => simp [readMySQL_pair, readMySQL_end h, collapse]
  | case3 c hc =>
    simp at hb
    simp [readMySQL_cons_ne hc (Ne.symm hb), readMySQL_end h, collapse]
  | case4 d ih => simp at hb; simp [readMySQL_pair, ih (by simpa using hb), collapse]
  | case5 c d hc ih =>
    simp at hb
    simp [readMySQL_cons_ne hc (Ne.symm hb.1), ih (by simpa using hb.2), collapse]
  | case6 e r ih => simp at hb; simp [readMySQL_pair, ih (by simpa using hb), collapse]
  | case7 d e r hd ih => simp at hb; simp [readMySQL_pair, ih (by simpa using hb), collapse, hd]
  | case8 c d e r hc ih =>
    simp at hb
    simp [readMySQL_cons_ne hc (Ne.symm hb.1), ih (by simpa using hb.2), collapse, hc]

theorem readTerm_quoted (d : Dialect) (s rest : Str) (h : rest.head? ≠ some '\'')
    (hb : d = .mysql → '\\' ∉ s) :
    readTerm d (b!"'" ++ escapeQuote '\'' s ++ b!"'" ++ rest) = some (collapse '\'' s, rest) := by
  rw [show b!"'" ++ escapeQuote '\'' s ++ b!"'" ++ rest =
    '\'' :: (escapeQuote '\'' s ++ '\'' :: rest) by simp]
  show readString d (escapeQuote '\'' s ++ '\'' :: rest) = _
  by_cases hd : d = .mysql
  · subst hd; exact readMySQL_escapeQuote s rest h (hb rfl)
  · have := readQuoted_escapeQuote '\'' s rest h
    cases d <;> first | exact this | exact absurd rfl hd

/-- The values of a list of names, up to doubled quotes. -/
theorem readTerms_mklist (d : Dialect) (rest : Str) : ∀ (names : List Str), names ≠ [] →
    (d = .mysql → ∀ s ∈ names, '\\' ∉ s) → ∀ fuel, names.length ≤ fuel →
    readTerms d b!", " (b!")" ++ rest) fuel
      (join b!", " (names.map fun s => b!"'" ++ escapeQuote '\'' s ++ b!"'") ++ (b!")" ++ rest)) =
      some (names.map (collapse '\'')) := by
  intro names
  induction names with
  | nil => intro h; exact absurd rfl h
  | cons n names ih =>
    intro _ hb fuel hf
    cases fuel with
    | zero => simp at hf
    | succ fuel =>
    cases names with
    | nil =>
      simp only [List.map_cons, List.map_nil, join]
      rw [readTerms, readTerm_quoted d n (b!")" ++ rest) (by simp) (fun e => hb e n (by simp))]
      simp
    | cons m names =>
      have h1 := ih (by simp) (fun e s hs => hb e s (by simp [hs])) fuel (by simpa using hf)
      simp only [List.map_cons, join] at h1 ⊢
      rw [readTerms, List.append_assoc, List.append_assoc _ b!", ",
        readTerm_quoted d n _ (by simp) (fun e => hb e n (by simp))]
      simp only
      rw [if_neg (by simp), if_pos (by simp)]
      rw [show b!", ".length = 2 from rfl]
      simp only [List.cons_append, List.drop_succ_cons, List.drop_zero, List.nil_append] at h1 ⊢
      rw [h1]
      simp

/-- **C81, partial**: a filter is the list of the names that it is given: the text written between
the brackets of `IN (…)` or `NOT IN (…)` is a list of string literals with the values of the names,
empty ones left out, and it ends at the closing bracket.  Missing: names with two adjacent quotes,
a backslash on MySQL, and filters with no name but the empty one, see `filterPair_refuted`,
`filterBackslash_refuted` and `filterEmpty_refuted`. -/
theorem mklist_reads_partial (d : Dialect) (names : List Str) (rest : Str)
    (hn : ∃ s ∈ names, s ≠ []) (hp : ∀ s ∈ names, ¬ HasInnerPair '\'' s)
    (hb : d = .mysql → ∀ s ∈ names, '\\' ∉ s) :
    readTerms d b!", " (b!")" ++ rest) names.length (mklist names ++ (b!")" ++ rest)) =
      some (names.filter (· ≠ [])) := by
  have hne : names.filter (· ≠ []) ≠ [] := by
    obtain ⟨s, h1, h2⟩ := hn
    exact List.ne_nil_of_mem (List.mem_filter.2 ⟨h1, by simpa using h2⟩)
  have := readTerms_mklist d rest (names.filter (· ≠ [])) hne
    (fun e s hs => hb e s (List.mem_filter.1 hs).1) names.length (List.length_filter_le _ _)
  refine this.trans ?_
  congr 1
  conv => rhs; rw [← List.map_id (names.filter (· ≠ []))]
  apply List.map_congr_left
  intro s hs
  exact (collapse_eq_iff '\'' s).2 (hp s (List.mem_filter.1 hs).1)

example : mklist [b!"it's", [], b!"film"] = b!"'it''s', 'film'" ∧
    (∃ s ∈ [b!"it's", [], b!"film"], s ≠ []) := by decide

/-- **C81**: whatever the names, on all databases but MySQL the filter is a list of string literals
and nothing else, one for each non-empty name: no name can change the query. -/
theorem mklist_stays_inside (d : Dialect) (hd : d ≠ .mysql) (names : List Str) (rest : Str)
    (hn : ∃ s ∈ names, s ≠ []) :
    ∃ vs, readTerms d b!", " (b!")" ++ rest) names.length (mklist names ++ (b!")" ++ rest)) = some vs ∧
      vs.length = (names.filter (· ≠ [])).length := by
  have hne : names.filter (· ≠ []) ≠ [] := by
    obtain ⟨s, h1, h2⟩ := hn
    exact List.ne_nil_of_mem (List.mem_filter.2 ⟨h1, by simpa using h2⟩)
  exact ⟨_, readTerms_mklist d rest (names.filter (· ≠ [])) hne (fun e => absurd e hd) names.length
    (List.length_filter_le _ _), by simp⟩

example : mklist [b!"x') OR ('1' = '1"] = b!"'x'') OR (''1'' = ''1'" := by decide

/-- **C81, refuted** for names with two adjacent quotes: the name `a''b` is looked for as `a'b`. -/
theorem filterPair_refuted :
    ¬ ∀ (names : List Str), (∃ s ∈ names, s ≠ []) →
      readTerms .postgres b!", " b!")" names.length (mklist names ++ b!")") =
        some (names.filter (· ≠ [])) := by
  intro h
  exact absurd (h [b!"a''b"] (by decide)) (by decide)

/-- **C81, refuted** for MySQL: a backslash at the end of a name takes the closing quote into the
literal, and what the next name holds is read as SQL. -/
theorem filterBackslash_refuted :
    mklist [b!"a\\", b!") OR 1 IN (1) -- "] = b!"'a\\', ') OR 1 IN (1) -- '" ∧
    readMySQLString (b!"a\\', ') OR 1 IN (1) -- '") = some (b!"a', ", b!") OR 1 IN (1) -- '") := by
  decide

/-- **C81, refuted** for a filter that has the empty name only: no value is left, `IN ()`. -/
theorem filterEmpty_refuted : mklist [[]] = [] ∧ readTerms .sqlite b!", " b!")" 9 b!")" = none := by
  decide

/-! ## Versions -/

/-- A version number as text. -/
def dotted (ns : List Nat) : Str := join b!"." (ns.map fun n => Nat.toDigits 10 n)

theorem mem_dotted {ns : List Nat} {c : Char} (h : c ∈ dotted ns) : c = '.' ∨ isDigit c = true := by
  unfold dotted at h
  induction ns with
  | nil => simp [join] at h
  | cons n ns ih =>
    cases ns with
    | nil => exact Or.inr (toDigits_digits n c h)
    | cons m ns =>
      simp only [List.map_cons, join, List.mem_append, List.mem_singleton] at h ih
      rcases h with (h | h) | h
      · exact Or.inr (toDigits_digits n c h)
      · exact Or.inl (by simpa using h)
      · exact ih h

theorem numbers_dotted (ns : List Nat) (hne : ns ≠ []) (h : ∀ n ∈ ns, n < 2 ^ 63) :
    (split '.' (dotted ns)).mapM parseInt64 = some (ns.map Int.ofNat) := by
  have hs : split '.' (dotted ns) = ns.map fun n => Nat.toDigits 10 n := by
    refine split_join (by simpa using hne) ?_
    intro s hs hm
    obtain ⟨n, -, rfl⟩ := List.mem_map.1 hs
    exact absurd (toDigits_digits n _ hm) (by decide)
  rw [hs]
  clear hs hne
  induction ns with
  | nil => rfl
  | cons n ns ih =>
    have h1 : parseInt64 (Nat.toDigits 10 n) = some (Int.ofNat n) := by
      have := parseInt64_formatInt (Int.ofNat n) (by
        have := h n (by simp)
        constructor
        · have : (0 : Int) ≤ Int.ofNat n := Int.natCast_nonneg n
          omega
        · show (n : Int) < 2 ^ 63
          omega)
      exact this
    rw [List.map_cons, List.mapM_cons, h1, ih fun m hm => h m (by simp [hm])]
    rfl

theorem takeWhile_stop {c : Char} {s t : Str} (h : c ∉ s) :
    (s ++ c :: t).takeWhile (· ≠ c) = s := by
  induction s with
  | nil => simp
  | cons x s ih =>
    rw [List.mem_cons, not_or] at h
    rw [List.cons_append, List.takeWhile_cons, if_pos (by simpa using Ne.symm h.1), ih h.2]

theorem takeWhile_all {c : Char} {s : Str} (h : c ∉ s) : s.takeWhile (· ≠ c) = s := by
  induction s with
  | nil => simp
  | cons x s ih =>
    rw [List.mem_cons, not_or] at h
    rw [List.takeWhile_cons, if_pos (by simpa using Ne.symm h.1), ih h.2]

theorem contains_letter {c : Char} {p : Str} {s : Str} (h : c ∉ s) : contains (c :: p) s = false := by
  induction s with
  | nil => rfl
  | cons x s ih =>
    rw [List.mem_cons, not_or] at h
    rw [contains, ih h.2]
    simp [hasPrefix, List.isPrefixOf, h.1]

/-- **C82, partial**: the version numbers of the database: SQLite, MySQL and SQL Server report them
alone, Postgres with the build behind a blank, MariaDB with its name behind a hyphen.  Missing:
other texts behind the numbers, see `version_refuted`. -/
theorem getVersionNums_partial (d : Dialect) (hd : supported d = true) (ns : List Nat) (hne : ns ≠ [])
    (h : ∀ n ∈ ns, n < 2 ^ 63) (v : Str)
    (hv : v = dotted ns ∨ (d = .postgres ∧ ∃ build, v = dotted ns ++ ' ' :: build) ∨
      (d = .mysql ∧ ∃ build, v = dotted ns ++ '-' :: build ∧ contains b!"MariaDB" v = true)) :
    getVersionNums d (some v) = .ok (ns.map Int.ofNat) := by
  have hno : ∀ c, c ≠ '.' → isDigit c = false → c ∉ dotted ns := by
    intro c h1 h2 h3
    rcases mem_dotted h3 with h4 | h4
    · exact h1 h4
    · rw [h2] at h4; cases h4
  have key : versionText d v = dotted ns := by
    rcases hv with rfl | ⟨rfl, b, rfl⟩ | ⟨rfl, b, rfl, hm⟩
    · have h1 := takeWhile_all (hno ' ' (by decide) (by decide))
      have h2 : contains b!"MariaDB" (dotted ns) = false :=
        contains_letter (hno 'M' (by decide) (by decide))
      cases d <;> simp only [versionText]
      · exact h1
      · rw [h2]; rfl
    · exact takeWhile_stop (hno ' ' (by decide) (by decide))
    · simp only [versionText, hm]
      exact takeWhile_stop (hno '-' (by decide) (by decide))
  simp only [getVersionNums, hd, if_true, key, numbers_dotted ns hne h]

example : getVersionNums .postgres (some b!"15.2 (Debian 15.2-1.pgdg110+1)") = .ok [15, 2] ∧
    getVersionNums .mysql (some b!"10.11.2-MariaDB-1:10.11.2+maria~ubu2204") = .ok [10, 11, 2] := by
  decide +kernel

/-- **C82, refuted**: MySQL servers report texts behind the numbers, too (a distribution, `-log`,
Amazon's Aurora), and Postgres reports `16beta1` before a release.  With such a server nothing can
be introspected. -/
theorem version_refuted (isFloat : Str → Bool) (types : List Str) (cat : Catalog) :
    (∀ v ∈ [b!"8.0.33-0ubuntu0.22.04.2", b!"8.0.32-log", b!"5.7.mysql_aurora.2.11.2"],
      ∀ srv : Server, srv.version = some v → writeCatalog isFloat .mysql types srv cat = .err) ∧
    (∀ srv : Server, srv.version = some b!"16beta1" →
      writeCatalog isFloat .postgres types srv cat = .err) := by
  constructor
  · intro v hv srv hs
    have : getVersionNums .mysql (some v) = .err := by
      clear hs
      revert v
      decide +kernel
    simp only [writeCatalog, writeHeader, hs, this]
    rfl
  · intro srv hs
    have : getVersionNums .postgres (some b!"16beta1") = .err := by decide +kernel
    simp only [writeCatalog, writeHeader, hs, this]
    rfl

/-! ## Types -/

theorem pgTypeName_ends (b : Str) :
    (∀ c ∈ b.head?, isSpace c = false) → ∀ c ∈ (pgTypeName b []).head?, isSpace c = false := by
  intro h
  rcases pgTypeName_cases b [] with e | e
  · rw [e.1]; exact h
  · revert e
    generalize pgTypeName b [] = n
    clear h
    revert n
    decide

theorem pgTypeName_last (b : Str) :
    (∀ c ∈ b.getLast?, isSpace c = false) → ∀ c ∈ (pgTypeName b []).getLast?, isSpace c = false := by
  intro h
  rcases pgTypeName_cases b [] with e | e
  · rw [e.1]; exact h
  · revert e
    generalize pgTypeName b [] = n
    clear h
    revert n
    decide

theorem pgTypeName_plain (b : Str) (x : Char) (hx : x = '(' ∨ x = ')') (h : x ∉ b) :
    x ∉ pgTypeName b [] := by
  rcases pgTypeName_cases b [] with e | e
  · rw [e.1]; exact h
  · have : ∀ n ∈ pgResults, '(' ∉ n ∧ ')' ∉ n := by decide
    have := this _ e
    rcases hx with rfl | rfl
    · exact this.1
    · exact this.2

/-- A type name: no brackets, and no blanks at its ends. -/
structure TypeName (n : Str) : Prop where
  plain : '(' ∉ n ∧ ')' ∉ n
  ends : n ≠ [] ∧ (∀ c ∈ n.head?, isSpace c = false) ∧ ∀ c ∈ n.getLast?, isSpace c = false

theorem head_take {s : Str} {k : Nat} : ∀ c ∈ (s.take k).head?, c ∈ s.head? := by
  intro c hc
  cases s with
  | nil => simp at hc
  | cons x s => cases k with
    | zero => simp at hc
    | succ k => simpa using hc

theorem pgType_name {b : Str} (h : TypeName b) :
    '(' ∉ pgType b [] ∧ ')' ∉ pgType b [] ∧ (∀ c ∈ (pgType b []).head?, isSpace c = false) ∧
      (∀ c ∈ (pgType b []).getLast?, isSpace c = false) := by
  unfold pgType
  split
  · have t : ∀ x, x ∉ b → x ∉ b.take (b.length - 2) := fun x hx hm => hx (List.mem_of_mem_take hm)
    refine ⟨?_, ?_, ?_, ?_⟩
    · simp [pgTypeName_plain _ _ (Or.inl rfl) (t _ h.plain.1)]
    · simp [pgTypeName_plain _ _ (Or.inr rfl) (t _ h.plain.2)]
    · intro c hc
      rw [List.head?_append] at hc
      cases e : (pgTypeName (b.take (b.length - 2)) []).head? with
      | none => rw [e] at hc; revert hc; simp; rintro rfl; decide
      | some x =>
        rw [e] at hc
        simp at hc
        subst hc
        exact pgTypeName_ends _ (fun c hc => h.ends.2.1 c (head_take c hc)) x e
    · intro c hc
      rw [List.getLast?_append] at hc
      revert hc; simp; rintro rfl; decide
  · exact ⟨pgTypeName_plain _ _ (Or.inl rfl) h.plain.1, pgTypeName_plain _ _ (Or.inr rfl) h.plain.2,
      pgTypeName_ends _ h.ends.2.1, pgTypeName_last _ h.ends.2.2⟩

theorem toUpper_toLower (s : Str) : toUpper (toLower s) = toUpper s := by
  unfold toUpper toLower
  rw [List.map_map]
  congr 1
  funext c
  exact upperC_lowerC c

theorem typeName_upper {n : Str} (h : TypeName n) : TypeName (toUpper n) := by
  refine ⟨⟨?_, ?_⟩, ?_, ?_, ?_⟩
  · rw [mem_toUpper _ (by decide)]; exact h.plain.1
  · rw [mem_toUpper _ (by decide)]; exact h.plain.2
  · simpa [toUpper] using h.ends.1
  · intro c hc
    unfold toUpper at hc
    rw [List.head?_map] at hc
    obtain ⟨x, hx, rfl⟩ := Option.map_eq_some_iff.1 hc
    rw [isSpace_upperC]; exact h.ends.2.1 x hx
  · intro c hc
    unfold toUpper at hc
    rw [List.getLast?_map] at hc
    obtain ⟨x, hx, rfl⟩ := Option.map_eq_some_iff.1 hc
    rw [isSpace_upperC]; exact h.ends.2.2 x hx

/-- An argument of a type: a text without brackets, commas and blanks, in upper case. -/
structure TypeArg (a : Str) : Prop where
  plain : a ≠ [] ∧ ',' ∉ a ∧ ∀ c ∈ a, isSpace c = false
  upper : toUpper a = a

theorem TypeArg.trim {a : Str} (h : TypeArg a) : trimSpace a = a :=
  trim_of_ends (fun c hc => h.plain.2.2 c (List.mem_of_mem_head? hc))
    (fun c hc => h.plain.2.2 c (List.mem_of_mem_getLast? hc))

/-- A type as Postgres reports it: a name and up to two arguments. -/
def typeOf (name : Str) : List Str → Str
  | [] => name
  | args => name ++ '(' :: (join b!"," args ++ [')'])

theorem argPair_join (args : List Str) (h : ∀ a ∈ args, TypeArg a) (h0 : args ≠ [])
    (hl : args.length ≤ 2) :
    argPair (join b!"," args) = (args.headD [], args.tail.headD []) := by
  match args, hl with
  | [a], _ =>
    have ha := h a (by simp)
    have : indexByte a ',' = none := (indexByte_none a ',').2 ha.plain.2.1
    simp [argPair, join, ha.trim, this]
  | [a, b], _ =>
    have ha := h a (by simp)
    have hb := h b (by simp)
    have ht : trimSpace (a ++ b!"," ++ b) = a ++ b!"," ++ b := by
      apply trim_of_ends
      · intro c hc
        rw [List.append_assoc, List.head?_append] at hc
        cases e : a.head? with
        | none => exact absurd (List.head?_eq_none_iff.1 e) ha.plain.1
        | some x => rw [e] at hc; simp at hc; subst hc; exact ha.plain.2.2 x (List.mem_of_mem_head? e)
      · intro c hc
        rw [List.getLast?_append] at hc
        cases e : b.getLast? with
        | none => exact absurd (List.getLast?_eq_none_iff.1 e) hb.plain.1
        | some x => rw [e] at hc; simp at hc; subst hc; exact hb.plain.2.2 x (List.mem_of_mem_getLast? e)
    have hi : indexByte (a ++ b!"," ++ b) ',' = some a.length := by
      unfold indexByte
      rw [List.append_assoc, List.findIdx?_append]
      have : List.findIdx? (· == ',') a = none := (indexByte_none a ',').2 ha.plain.2.1
      rw [this]
      simp [List.findIdx?_cons]
    simp only [argPair, join, ht, hi]
    simp [ha.trim, hb.trim]
  | [], _ => exact absurd rfl h0

theorem typeArgs_typeOf {name : Str} {args : List Str} (hn : TypeName name)
    (h : ∀ a ∈ args, TypeArg a) (hl : args.length ≤ 2) :
    typeArgs (toUpper (trimSpace (typeOf name args))) =
      some (toUpper name, args.headD [], args.tail.headD [], []) := by
  have hu := typeName_upper hn
  cases args with
  | nil =>
    show typeArgs (toUpper (trimSpace name)) = _
    rw [trim_of_ends hn.ends.2.1 hn.ends.2.2]
    exact typeArgs_plain _ hu.plain.2
  | cons a args =>
    have ht : trimSpace (typeOf name (a :: args)) = typeOf name (a :: args) := by
      apply trim_of_ends
      · intro c hc
        unfold typeOf at hc
        rw [List.head?_append] at hc
        cases e : name.head? with
        | none => exact absurd (List.head?_eq_none_iff.1 e) hn.ends.1
        | some x => rw [e] at hc; simp at hc; subst hc; exact hn.ends.2.1 x e
      · intro c hc
        rw [show typeOf name (a :: args) = (name ++ '(' :: join b!"," (a :: args)) ++ [')'] by
          simp [typeOf], List.getLast?_append] at hc
        revert hc; simp; rintro rfl; decide
    have hj : toUpper (join b!"," (a :: args)) = join b!"," (a :: args) := by
      rw [toUpper_eq_iff]
      intro c hc
      have : ∀ l : List Str, c ∈ join b!"," l → c = ',' ∨ ∃ x ∈ l, c ∈ x := by
        intro l
        induction l with
        | nil => intro h; simp [join] at h
        | cons y l ih =>
          cases l with
          | nil => intro h; exact Or.inr ⟨y, by simp, h⟩
          | cons z l =>
            intro h
            simp only [join, List.mem_append, List.mem_singleton] at h
            rcases h with (h | h) | h
            · exact Or.inr ⟨y, by simp, h⟩
            · exact Or.inl (by simpa using h)
            · rcases ih h with h | ⟨x, hx, hc⟩
              · exact Or.inl h
              · exact Or.inr ⟨x, by simp at hx ⊢; exact Or.inr hx, hc⟩
      rcases this _ hc with rfl | ⟨x, hx, hcx⟩
      · decide
      · exact (toUpper_eq_iff x).1 (h x hx).upper c hcx
    rw [ht]
    unfold typeOf
    rw [toUpper_append, show toUpper ('(' :: (join b!"," (a :: args) ++ [')'])) =
      '(' :: (join b!"," (a :: args) ++ [')']) by
        rw [show '(' :: (join b!"," (a :: args) ++ [')']) = b!"(" ++ join b!"," (a :: args) ++ b!")" by
          simp, toUpper_append, toUpper_append, hj]; rfl]
    rw [typeArgs_brackets _ _ hu.plain.1, argPair_join _ h (by simp) hl,
      trim_of_ends hu.ends.2.1 hu.ends.2.2]

theorem typeText_typeOf {name : Str} (args : List Str) (h : '(' ∉ name ∧ ')' ∉ name) :
    TypeText (typeOf name args) name := by
  cases args with
  | nil => exact .plain _ h.2
  | cons a args => exact .args _ _ h.1

theorem mem_toLower_bracket (s : Str) (x : Char) (hx : x = '(' ∨ x = ')') (h : x ∉ s) :
    x ∉ toLower s := by
  intro hm
  have : x ∈ toUpper (toLower s) := by
    rcases hx with rfl | rfl <;> exact (mem_toUpper _ (by decide) _).2 hm
  rw [toUpper_toLower] at this
  rcases hx with rfl | rfl <;> exact h ((mem_toUpper _ (by decide) _).1 this)

theorem typeName_lower {n : Str} (h : TypeName n) : TypeName (toLower n) := by
  have hu := typeName_upper h
  rw [← toUpper_toLower] at hu
  refine ⟨⟨mem_toLower_bracket n _ (Or.inl rfl) h.plain.1,
    mem_toLower_bracket n _ (Or.inr rfl) h.plain.2⟩, by simpa [toLower] using h.ends.1, ?_, ?_⟩
  · intro c hc
    have := hu.ends.2.1 (upperC c) (by unfold toUpper; rw [List.head?_map, hc]; rfl)
    rwa [isSpace_upperC] at this
  · intro c hc
    have := hu.ends.2.2 (upperC c) (by unfold toUpper; rw [List.getLast?_map, hc]; rfl)
    rwa [isSpace_upperC] at this

theorem pgType_typeName {b : Str} (h : TypeName b) : TypeName (pgType b []) := by
  obtain ⟨h1, h2, h3, h4⟩ := pgType_name h
  refine ⟨⟨h1, h2⟩, ?_, h3, h4⟩
  unfold pgType
  split
  · simp
  · rcases pgTypeName_cases b [] with e | e
    · rw [e.1]; exact h.ends.1
    · have : ∀ n ∈ pgResults, n ≠ [] := by decide
      exact this _ e

theorem head_any {n : Str} (h : TypeName n) : n.head?.any (fun c => !isSpace c) := by
  cases n with
  | nil => exact absurd rfl h.ends.1
  | cons c n => simpa using h.ends.2.1 c rfl

/-- **C83, partial**: a column of Postgres is given the type that the database reports: the same
arguments, and a name that denotes the same type (an array stays an array).  Missing: arguments
before the brackets of an array, time zones behind the precision, enums and quoted names, see
`arrayType_refuted` and `quotedType_refuted`. -/
theorem postgresType_partial (isFloat : Str → Bool) (r : Column) (name : Str) (args : List Str)
    (he : r.isEnum = false) (hn : TypeName name) (ha : ∀ a ∈ args, TypeArg a) (hl : args.length ≤ 2)
    (ht : r.columnType = typeOf name args) :
    ∃ c name', scanColumn isFloat .postgres r = some c ∧ c.columnType = typeOf name' args ∧
      typeMeaning .postgres name' = typeMeaning .postgres name ∧
      normalizeColumnType .postgres c.columnType = normalizeColumnType .postgres r.columnType := by
  have hm := typeArgs_typeOf hn ha hl
  have hN := pgType_typeName (typeName_upper hn)
  have hL := typeName_lower hN
  have e1 : normalizeColumnType .postgres r.columnType =
      some (pgType (toUpper name) [], args.headD [], args.tail.headD []) := by
    rw [ht]; simp only [normalizeColumnType, hm]
  have hup : toUpper (toLower (pgType (toUpper name) [])) = pgType (toUpper name) [] := by
    rw [toUpper_toLower]
    apply pgType_upper
    unfold toUpper
    rw [List.map_map]
    congr 1
    funext c
    exact upperC_upperC c
  have e2 : normalizeColumnType .postgres (typeOf (toLower (pgType (toUpper name) [])) args) =
      some (pgType (toUpper name) [], args.headD [], args.tail.headD []) := by
    simp only [normalizeColumnType, typeArgs_typeOf hL ha hl, hup, pgType_idem]
  have e3 : ∀ ty, pgColumnType false ty (pgType (toUpper name) []) (args.headD []) (args.tail.headD []) =
      typeOf (toLower (pgType (toUpper name) [])) args := by
    intro ty
    match args, hl, ha with
    | [], _, _ => simp [pgColumnType, typeOf]
    | [a], _, ha => simp [pgColumnType, typeOf, join, (ha a (by simp)).plain.1]
    | [a, b], _, ha =>
      simp [pgColumnType, typeOf, join, (ha a (by simp)).plain.1, (ha b (by simp)).plain.1]
  have m1 := normalizeColumnType_meaning_partial .postgres _ name _ _ _
    (typeText_typeOf args hn.plain) (head_any hn) (ht ▸ e1) (by simp)
  have m2 := normalizeColumnType_meaning_partial .postgres _ _ _ _ _
    (typeText_typeOf args hL.plain) (head_any hL) e2 (by simp)
  rw [trim_of_ends hn.ends.2.1 hn.ends.2.2] at m1
  rw [trim_of_ends hL.ends.2.1 hL.ends.2.2] at m2
  obtain ⟨c, hc, hcT⟩ : ∃ c, scanColumn isFloat .postgres r = some c ∧
      c.columnType = typeOf (toLower (pgType (toUpper name) [])) args := by
    simp only [scanColumn, postgresColumn, e1, Option.map_some, he, e3]
    exact ⟨_, rfl, rfl⟩
  exact ⟨c, _, hc, hcT, by rw [← m2, m1], by rw [hcT, e1, e2]⟩

example : TypeName b!"character varying" ∧ TypeArg b!"255" ∧ TypeName b!"bigint[]" ∧
    typeOf b!"character varying" [b!"255"] = b!"character varying(255)" ∧
    (scanColumn (fun _ => false) .postgres { columnType := b!"character varying(255)" }).map
      (·.columnType) = some b!"varchar(255)" ∧
    (scanColumn (fun _ => false) .postgres { columnType := b!"bigint[]" }).map
      (·.columnType) = some b!"bigint[]" :=
  ⟨⟨by decide, by decide⟩, ⟨by decide, by decide⟩, ⟨by decide, by decide⟩, by decide, by decide +kernel,
    by decide +kernel⟩

/-- **C83, refuted** for an array of a type with arguments: the column is read as one that is not
an array. -/
theorem arrayType_refuted :
    (scanColumn (fun _ => false) .postgres { columnType := b!"character varying(255)[]" }).map
      (·.columnType) = some b!"varchar(255)" ∧
    (scanColumn (fun _ => false) .postgres { columnType := b!"numeric(10,2)[]" }).map
      (·.columnType) = some b!"numeric(10,2)" := by decide +kernel

/-- **C83, refuted** for a name in quotes, that of an enum or of any other type: `"Mood"` is read as
`"mood"`, a different type. -/
theorem quotedType_refuted :
    ∀ e, (scanColumn (fun _ => false) .postgres { columnType := b!"\"Mood\"", isEnum := e }).map
      (·.columnType) = some b!"\"mood\"" := by decide +kernel

/-- **C83, refuted** for SQL Server: the length of an `nchar` is lost, so that columns of different
types cannot be told apart, and a column that is made from what was read has length 1. -/
theorem ncharType_refuted :
    scanColumn (fun _ => false) .sqlserver { columnType := b!"nchar", characterLength := b!"10" } =
      scanColumn (fun _ => false) .sqlserver { columnType := b!"nchar", characterLength := b!"20" } ∧
    (scanColumn (fun _ => false) .sqlserver { columnType := b!"nchar", characterLength := b!"10" }).map
      (·.columnType) = some b!"nchar" := by decide +kernel

/-- **C83**: a SQL Server column of characters, of bytes or of decimals is given the type with the
length, or the precision and scale, of the database; a length of -1 is `MAX`. -/
theorem sqlserverType_text (isFloat : Str → Bool) (r : Column) :
    (r.columnType ∈ [b!"varbinary", b!"binary", b!"nvarchar", b!"varchar", b!"char"] →
      ∃ c, scanColumn isFloat .sqlserver r = some c ∧
        c.columnType = typeOf r.columnType
          [if r.characterLength = b!"-1" then b!"MAX" else r.characterLength]) ∧
    (r.columnType ∈ [b!"numeric", b!"decimal"] → r.numericPrecision ≠ [] → r.numericScale ≠ [] →
      ∃ c, scanColumn isFloat .sqlserver r = some c ∧
        c.columnType = typeOf r.columnType [r.numericPrecision, r.numericScale]) := by
  constructor
  · intro h
    have key : ∀ t ∈ [b!"varbinary", b!"binary", b!"nvarchar", b!"varchar", b!"char"],
        normalizeColumnType .sqlserver t = some (toUpper t, [], []) ∧
        toUpper t ∈ [b!"VARBINARY", b!"BINARY", b!"NVARCHAR", b!"VARCHAR", b!"CHAR"] := by
      decide +kernel
    obtain ⟨k1, k2⟩ := key _ h
    simp only [scanColumn, sqlserverColumn, k1, Option.map_some, sqlserverSizes, if_pos k2]
    exact ⟨_, rfl, by simp [typeOf, join, sqlserverLength]⟩
  · intro h h1 h2
    have key : ∀ t ∈ [b!"numeric", b!"decimal"],
        normalizeColumnType .sqlserver t = some (b!"NUMERIC", [], []) := by decide +kernel
    have k1 := key _ h
    simp only [scanColumn, sqlserverColumn, k1, Option.map_some, sqlserverSizes]
    refine ⟨_, rfl, ?_⟩
    rw [if_neg (by decide), if_pos trivial, if_pos ⟨h1, h2⟩]
    simp [typeOf, join]

example : ∃ c, scanColumn (fun _ => false) .sqlserver
      { columnType := b!"nvarchar", characterLength := b!"-1" } = some c ∧
      c.columnType = b!"nvarchar(MAX)" :=
  (sqlserverType_text (fun _ => false) { columnType := b!"nvarchar", characterLength := b!"-1" }).1
    (by decide)

/-! ## Defaults -/

/-- **C83, partial**: the default of a SQLite column is what the database reports, in brackets if it
is an expression (which SQLite demands).  Missing: expressions that begin and end with a bracket, or
with a quote, see `sqliteDefault_refuted`. -/
theorem sqliteDefault_partial (isFloat : Str → Bool) (r : Column) (hne : r.columnDefault ≠ [])
    (hb : Balanced r.columnDefault)
    (hw : Enclosed r.columnDefault ∨ r.columnDefault.head? ≠ some '(' ∨
      r.columnDefault.getLast? ≠ some ')') :
    ∃ c, scanColumn isFloat .sqlite r = some c ∧
      (isLiteral isFloat r.columnDefault = true → c.columnDefault = r.columnDefault) ∧
      (isLiteral isFloat r.columnDefault = false → Enclosed c.columnDefault ∧
        (c.columnDefault = r.columnDefault ∨ c.columnDefault = b!"(" ++ r.columnDefault ++ b!")")) := by
  refine ⟨_, rfl, ?_, ?_⟩
  · intro h
    simp [sqliteColumn, h]
  · intro h
    have e : (sqliteColumn isFloat r).columnDefault = wrapBrackets r.columnDefault := by
      simp [sqliteColumn, h, hne]
    rw [e]
    refine ⟨wrapBrackets_enclosed_partial _ hb hne hw, ?_⟩
    unfold wrapBrackets
    rw [if_neg hne]
    split
    · exact Or.inl rfl
    · exact Or.inr rfl

example : Balanced b!"datetime()" ∧
    (scanColumn (fun _ => false) .sqlite { columnDefault := b!"datetime()" }).map (·.columnDefault) =
      some b!"(datetime())" :=
  ⟨.char _ _ (by decide) (.char _ _ (by decide) (.char _ _ (by decide) (.char _ _ (by decide)
    (.char _ _ (by decide) (.char _ _ (by decide) (.char _ _ (by decide) (.char _ _ (by decide)
      (.paren [] [] .nil .nil)))))))), by decide +kernel⟩

/-- **C83, refuted** for SQLite: the expressions `(a)+(b)` and `'a'||'b'` are left without brackets. -/
theorem sqliteDefault_refuted :
    (scanColumn (fun _ => false) .sqlite { columnDefault := b!"(1)+(2)" }).map (·.columnDefault) =
      some b!"(1)+(2)" ∧
    (scanColumn (fun _ => false) .sqlite { columnDefault := b!"'a'||'b'" }).map (·.columnDefault) =
      some b!"'a'||'b'" := by decide +kernel

/-- **C83, partial**: the default of a MySQL column.  MySQL reports the value of a literal without
quotes and an expression in brackets: the text of a value that is no literal by itself becomes a
string literal with this value.  Missing: the values that look like a literal or an expression,
backslashes and adjacent quotes, see `mysqlDefault_refuted`. -/
theorem mysqlDefault_partial (isFloat : Str → Bool) (value : Str) (hne : value ≠ [])
    (hl : isLiteral isFloat value = false)
    (hw : value.head? ≠ some '(' ∨ value.getLast? ≠ some ')') (hb : '\\' ∉ value)
    (hp : ¬ HasInnerPair '\'' value) :
    readTerm .mysql (mysqlDefault isFloat value) = some (value, []) := by
  have hw' : wrappedInBrackets value = false := by
    unfold wrappedInBrackets
    rcases hw with h | h
    · simp [h]
    · simp [h]
  have e : mysqlDefault isFloat value = b!"'" ++ escapeQuote '\'' value ++ b!"'" ++ [] := by
    simp [mysqlDefault, hne, hl, hw']
  rw [e, readTerm_quoted .mysql value [] (by simp) (fun _ => hb)]
  rw [(collapse_eq_iff '\'' value).2 hp]

example : mysqlDefault (fun _ => false) b!"it's" = b!"'it''s'" ∧
    isLiteral (fun _ => false) b!"it's" = false := by decide +kernel

/-- **C83, refuted** for MySQL: the values `NULL`, `CURRENT_TIMESTAMP` and `(now())` of a text
column become a keyword or an expression, the value `'x'` loses its quotes, the empty text is no
default at all, and the expression `uuid()`, as MariaDB reports it, becomes a text. -/
theorem mysqlDefault_refuted :
    (∀ v ∈ [b!"NULL", b!"CURRENT_TIMESTAMP", b!"(now())", b!"'x'", []],
      mysqlDefault (fun _ => false) v = v ∧ readTerm .mysql v ≠ some (v, [])) ∧
    mysqlDefault (fun _ => false) b!"uuid()" = b!"'uuid()'" := by decide +kernel

/-- **C83, partial**: the default of a SQL Server column, which the database reports in one or two
pairs of brackets: a literal alone, any other expression in brackets.  Missing: expressions that
begin and end with a bracket, see `sqlserverDefault_refuted`. -/
theorem sqlserverDefault_partial (isFloat : Str → Bool) (e : Str) (hne : e ≠ [])
    (hw : e.head? ≠ some '(' ∨ e.getLast? ≠ some ')') :
    (∀ s, s = b!"(" ++ e ++ b!")" ∨ s = b!"((" ++ e ++ b!"))" →
      sqlserverDefault isFloat s = if isLiteral isFloat e then e else b!"(" ++ e ++ b!")") := by
  have hw' : wrappedInBrackets e = false := by
    unfold wrappedInBrackets
    rcases hw with h | h
    · simp [h]
    · simp [h]
  have u0 : unwrapBrackets e = e := (unwrapBrackets_partial e).2 hw
  have u1 : unwrapBrackets (b!"(" ++ e ++ b!")") = e :=
    (unwrapBrackets_partial _).1 e (by simp)
  have u2 : unwrapBrackets (b!"((" ++ e ++ b!"))") = b!"(" ++ e ++ b!")" :=
    (unwrapBrackets_partial _).1 _ (by simp)
  have hwr : wrapBrackets e = b!"(" ++ e ++ b!")" := by simp [wrapBrackets, hne, hw']
  rintro s (rfl | rfl)
  · simp only [sqlserverDefault, u1, u0, hwr]
    cases isLiteral isFloat e <;> rfl
  · simp only [sqlserverDefault, u2, u1, hwr]
    cases isLiteral isFloat e <;> rfl

example : sqlserverDefault (fun _ => false) b!"((1))" = b!"1" ∧
    sqlserverDefault (fun _ => false) b!"(getdate())" = b!"(getdate())" := by decide +kernel

/-- **C83, refuted** for SQL Server: the default `(1+2)*(3+4)` is reported as
`(((1)+(2))*((3)+(4)))`, and read as a text whose brackets do not match. -/
theorem sqlserverDefault_refuted :
    sqlserverDefault (fun _ => false) b!"(((1)+(2))*((3)+(4)))" = b!"(1)+(2))*((3)+(4)" ∧
    depth 0 b!"(((1)+(2))*((3)+(4)))" = some 0 ∧ depth 0 b!"(1)+(2))*((3)+(4)" = none := by
  decide +kernel

/-! ## Checks -/

/-- **C83, partial**: the expression of a check: Postgres reports `CHECK (e)`, MySQL and SQL Server
`(e)`.  Missing: what Postgres writes behind the brackets, see `checkSuffix_refuted`. -/
theorem checkExpr_partial (r : ConstraintRow) (e : Str) :
    (r.row.checkExpr = b!"CHECK (" ++ e ++ b!")" → (scanConstraint .postgres r).checkExpr = e) ∧
    (r.row.checkExpr = b!"(" ++ e ++ b!")" → (scanConstraint .mysql r).checkExpr = e ∧
      (scanConstraint .sqlserver r).checkExpr = e) := by
  have u1 : unwrapBrackets (b!"(" ++ e ++ b!")") = e := (unwrapBrackets_partial _).1 e (by simp)
  constructor
  · intro h
    have ht : trimPrefix (b!"CHECK (" ++ e ++ b!")") b!"CHECK " = b!"(" ++ e ++ b!")" := by
      simp [trimPrefix, hasPrefix]
    show unwrapBrackets (trimPrefix r.row.checkExpr b!"CHECK ") = e
    rw [h, ht, u1]
  · intro h
    constructor
    · show unwrapBrackets r.row.checkExpr = e
      rw [h, u1]
    · show unwrapBrackets r.row.checkExpr = e
      rw [h, u1]

example : (scanConstraint .postgres { row := { checkExpr := b!"CHECK ((a > 0))" } }).checkExpr =
    b!"(a > 0)" := by decide

/-- **C83, refuted** for a check of Postgres that is not validated or not inherited: what follows
the expression becomes part of it, and the statement that is written from it is no SQL. -/
theorem checkSuffix_refuted :
    (scanConstraint .postgres
      { row := { checkExpr := b!"CHECK ((a > 0)) NOT VALID", isNotValid := true } }).checkExpr =
      b!"((a > 0)) NOT VALID" ∧
    Render.constraintDef .postgres [] (scanConstraint .postgres
      { row := { constraintName := b!"positive", constraintType := CHECK
                 checkExpr := b!"CHECK ((a > 0)) NO INHERIT" } }) =
      b!"CONSTRAINT positive CHECK (((a > 0)) NO INHERIT)" := by decide +kernel

end Sqddl.Introspect
