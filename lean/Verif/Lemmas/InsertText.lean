import Verif.Spec.InsertText
import Verif.Lemmas.SubsetRead
import Verif.Props.Batch

/-!
# The text of the statements of a batch insert is read
-/

namespace InsertSpec
open Go SqlSpec DdlText Sqddl Sqddl.BatchInsert
open WipeSpec (kws readName)
open SelectSpec (many mark ident readRef readEquation whole Ref sepBy eqToks refToks NameOk RefOk many_eq sepBy_length
  mark_self ident_eq kws_one NoDot noDot_punct noDot_word)
open SelectSpec (fixed_of Fixed readsP_sepBy bal_sepBy bal_cons_word bal_eq bal_brackets readEquation_eq eqToks_ne
  bal_qname bal_ident readRef_eq sepBy_flatMap dot_head NoAnd)
open Sqddl.Render (tableName readsP_qualified)
open BatchSpec (valuesList SetVal)

/-! ## Parameters -/

/-- The parameter with a number. -/
def param (d : Dialect) (n : Nat) : Param := if d = .postgres ∨ d = .sqlserver then .num n else .next

def paramToks (d : Dialect) (n : Nat) : List Tok :=
  match d with
  | .postgres => [.punct '$', .word (Nat.toDigits 10 n)]
  | .sqlserver => [.punct '@', .word ('p' :: Nat.toDigits 10 n)]
  | _ => [.punct '?']

theorem reads_punct (d : Dialect) (c : Char) (h : c ∈ ['$', '@', '?']) : Reads d [c] [.punct c] := fun rest => by
  rw [List.cons_append, List.nil_append, lex_cons]
  have h0 : c ≠ openQ d ∧ isSpace c = false ∧ wordChar c = false ∧ c ≠ '\'' ∧ c ≠ '-' ∧ c ≠ '/' := by
    revert c; cases d <;> decide
  simp [lexOne, h0]

theorem toDigits_word (n : Nat) : (Nat.toDigits 10 n).all wordChar = true := by
  rw [List.all_eq_true]
  intro c hc
  have := PqArray.toDigits_digits n c hc
  simp only [isDigit, Bool.and_eq_true, decide_eq_true_eq] at this
  simp [wordChar, this]

theorem readsP_placeholder (d : Dialect) (n : Nat) :
    ReadsP d (match d with
      | .postgres => '$' :: Nat.toDigits 10 n
      | .sqlserver => '@' :: 'p' :: Nat.toDigits 10 n
      | _ => b!"?") (paramToks d n) := by
  have h1 := (reads_punct d '$' (by decide)).append_p
    (reads_word d (Nat.toDigits 10 n) Nat.toDigits_ne_nil (toDigits_word n)).readsP
  have h2 := (reads_punct d '@' (by decide)).append_p
    (reads_word d ('p' :: Nat.toDigits 10 n) (by simp) (by simp [toDigits_word n]; decide)).readsP
  have h3 := (reads_punct d '?' (by decide)).readsP
  cases d
  · exact h3
  · exact h1
  · exact h3
  · exact h2
  · exact h3
  · exact h3

theorem number_toDigits (n : Nat) : number (Nat.toDigits 10 n) = some n := PqArray.parseDigits_toDigits n

theorem readParam_eq (d : Dialect) (n : Nat) : readParam d (paramToks d n) = some (param d n) := by
  cases d <;> simp [readParam, paramToks, param, number_toDigits]

theorem flat_param (d : Dialect) (n : Nat) : flat 0 (paramToks d n) = true := by
  cases d <;> simp [paramToks, flat, deeper]

/-! ## Rows of parameters -/

/-- Row `i` of the parameters of a statement. -/
def rowP (d : Dialect) (cols i : Nat) : List Param := (List.range cols).map fun j => param d (i * cols + j + 1)

def rowsP (d : Dialect) (rows cols : Nat) : List (List Param) := (List.range rows).map (rowP d cols)

def rowT (d : Dialect) (cols i : Nat) : List Tok :=
  .punct '(' :: (commaSep ((List.range cols).map fun j => paramToks d (i * cols + j + 1)) ++ [.punct ')'])

def rowsT (d : Dialect) (rows cols : Nat) : List Tok := sepBy [.punct ','] ((List.range rows).map (rowT d cols))

theorem readsP_valuesList (d : Dialect) (rows cols : Nat) : ReadsP d (valuesList d rows cols) (rowsT d rows cols) := by
  unfold valuesList rowsT
  refine readsP_sepBy d (sep := b!", ") (us := [.punct ',']) (by decide) (List.range rows) _ _ fun i _ => ?_
  have h1 := join_map_pairs (List.range cols) _ (fun j => paramToks d (i * cols + j + 1)) d
    fun j _ => readsP_placeholder d (i * cols + j + 1)
  have h2 := (h1.lit (t := b!")") (us := [.punct ')']) (by decide)).readsP
  have h3 := (reads_lit d b!"(" (by decide) (by decide)).append_p h2
  rw [show stoks b!"(" = [.punct '('] by decide] at h3
  cases d <;> simpa [rowT, List.append_assoc] using h3

theorem flat_params (d : Dialect) (cols i : Nat) :
    ∀ x ∈ (List.range cols).map fun j => paramToks d (i * cols + j + 1), flat 0 x = true := by
  intro x hx
  obtain ⟨j, _, rfl⟩ := List.mem_map.1 hx
  exact flat_param d _

theorem bal_rowT (d : Dialect) (cols i : Nat) : bal 0 (rowT d cols i) = true :=
  bal_brackets _ (bal_commaSep _ (flat_params d cols i)) [] rfl

theorem readRow_rowT (d : Dialect) (cols i : Nat) (hc : cols ≠ 0) (rest : List Tok) :
    readRow d (rowT d cols i ++ rest) = some (rowP d cols i, rest) := by
  have hb : inBrackets (rowT d cols i ++ rest) =
      some (commaSep ((List.range cols).map fun j => paramToks d (i * cols + j + 1)), rest) := by
    have := inBrackets_eq _ rest (bal_commaSep _ (flat_params d cols i))
    simpa [rowT, List.append_assoc] using this
  unfold readRow
  rw [hb, Option.bind_some]
  dsimp only
  rw [splitTop_commaSep _ (by simpa using hc) (flat_params d cols i),
    mapM_map_some (k := fun j => param d (i * cols + j + 1)) (readParam d) _ (List.range cols) fun j _ => readParam_eq d _]
  rfl

theorem readRows_eq (d : Dialect) (rows cols : Nat) (hr : rows ≠ 0) (hc : cols ≠ 0) (rest : List Tok)
    (h : mark ',' rest = none) : readRows d (rowsT d rows cols ++ rest) = some (rowsP d rows cols, rest) := by
  have key : ∀ is : List Nat, is ≠ [] → ∀ n, is.length ≤ n →
      many (readRow d) (mark ',') n (sepBy [.punct ','] (is.map (rowT d cols)) ++ rest) =
        some (is.map (rowP d cols), rest) := by
    intro is
    induction is with
    | nil => intro h; exact absurd rfl h
    | cons i is ih =>
      intro _ n hn
      obtain ⟨n, rfl⟩ : ∃ m, n = m + 1 := ⟨n - 1, by simp at hn; omega⟩
      cases is with
      | nil => simp only [List.map_cons, List.map_nil, sepBy, many, readRow_rowT d cols i hc, Option.bind_some, h]
      | cons j js =>
        have ih := ih (by simp) n (by simpa using hn)
        have e : sepBy [.punct ','] ((i :: j :: js).map (rowT d cols)) ++ rest =
            rowT d cols i ++ ([.punct ','] ++ (sepBy [.punct ','] ((j :: js).map (rowT d cols)) ++ rest)) := by
          simp [sepBy, List.append_assoc]
        rw [e, many, readRow_rowT d cols i hc, Option.bind_some]
        dsimp only
        rw [mark_self]
        dsimp only
        rw [ih]
        rfl
  have hl := sepBy_length [.punct ','] ((List.range rows).map (rowT d cols)) (by simp [rowT])
  rw [List.length_map, List.length_range] at hl
  exact key (List.range rows) (by simpa using hr) _ (by simp [rowsT]; omega)

theorem bal_rowsT (d : Dialect) (rows cols : Nat) : bal 0 (rowsT d rows cols) = true := by
  refine bal_sepBy _ (by decide) _ ?_
  intro x hx
  obtain ⟨r, _, rfl⟩ := List.mem_map.1 hx
  exact bal_rowT d _ _

/-! ## Values of parameters -/

theorem fill_eq (d : Dialect) (pre vs post : List (Option Str)) (k : Nat)
    (hk : param d 1 = .next → k = pre.length) :
    ∃ k', fill (pre ++ vs ++ post) k ((List.range' (pre.length + 1) vs.length).map (param d)) = some (vs, k') ∧
      (param d 1 = .next → k' = pre.length + vs.length) := by
  induction vs generalizing pre k with
  | nil => exact ⟨k, rfl, fun h => by simp [hk h]⟩
  | cons v vs ih =>
    have e : pre ++ v :: vs ++ post = (pre ++ [v]) ++ vs ++ post := by simp
    have hv : (pre ++ v :: vs ++ post)[pre.length]? = some v := by simp
    rw [List.length_cons, List.range'_succ, List.map_cons]
    by_cases hd : d = .postgres ∨ d = .sqlserver
    · have hp : ∀ n, param d n = .num n := fun n => by simp [param, hd]
      obtain ⟨k', h1, _⟩ := ih (pre ++ [v]) k (by simp [hp])
      refine ⟨k', ?_, by simp [hp]⟩
      rw [hp, fill, if_neg (by simp), Nat.add_sub_cancel, hv, Option.bind_some]
      rw [e]
      rw [List.length_append, List.length_singleton] at h1
      rw [h1]
      rfl
    · have hp : ∀ n, param d n = .next := fun n => by simp [param, hd]
      obtain ⟨k', h1, h2⟩ := ih (pre ++ [v]) (k + 1) (fun h => by simp [hk h])
      refine ⟨k', ?_, fun h => ?_⟩
      · have hk := hk (hp 1)
        rw [hp, fill, hk, hv, Option.bind_some]
        rw [e]
        rw [List.length_append, List.length_singleton, hk] at h1
        rw [h1]
        rfl
      · have := h2 h
        simp at this ⊢
        omega

theorem fillRows_eq (d : Dialect) (cols : Nat) (vss : List (List (Option Str))) (h : ∀ vs ∈ vss, vs.length = cols) :
    fillRows vss.flatten 0 (rowsP d vss.length cols) = some vss := by
  have key : ∀ (done todo : List (List (Option Str))) (k : Nat), (∀ vs ∈ done, vs.length = cols) →
      (∀ vs ∈ todo, vs.length = cols) → (param d 1 = .next → k = done.flatten.length) →
      fillRows (done ++ todo).flatten k ((List.range' done.length todo.length).map (rowP d cols)) = some todo := by
    intro done todo
    induction todo generalizing done with
    | nil => intro k _ _ _; rfl
    | cons vs todo ih =>
      intro k h1 h2 hk
      have hlen : done.flatten.length = done.length * cols := by
        clear ih hk h2
        induction done with
        | nil => simp
        | cons x xs ih =>
          simp only [List.flatten_cons, List.length_append, List.length_cons]
          rw [ih fun v hv => h1 v (by simp [hv]), h1 x (by simp)]
          grind
      have hrow : rowP d cols done.length = (List.range' (done.flatten.length + 1) vs.length).map (param d) := by
        rw [h2 vs (by simp), hlen, List.range'_eq_map_range, List.map_map]
        refine List.map_congr_left fun j _ => ?_
        simp only [Function.comp_apply]
        exact congrArg _ (by omega)
      obtain ⟨k', e1, e2⟩ := fill_eq d done.flatten vs todo.flatten k hk
      have ih := ih (done ++ [vs]) k' (by
        intro v hv
        rcases List.mem_append.1 hv with hv | hv
        · exact h1 v hv
        · rw [List.mem_singleton.1 hv]; exact h2 vs (by simp)) (fun v hv => h2 v (by simp [hv])) (fun h => by simpa using e2 h)
      rw [List.length_cons, List.range'_succ, List.map_cons, fillRows, hrow]
      rw [show (done ++ vs :: todo).flatten = done.flatten ++ vs ++ todo.flatten by simp, e1, Option.bind_some]
      dsimp only
      rw [show (done ++ [vs] ++ todo).flatten = done.flatten ++ vs ++ todo.flatten by simp, List.length_append,
        List.length_singleton] at ih
      rw [ih]
      rfl
  have := key [] vss 0 (by simp) h (by simp)
  simpa [rowsP, List.range_eq_range'] using this

end InsertSpec
