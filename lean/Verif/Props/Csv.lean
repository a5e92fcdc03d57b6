import Verif.Model.Csv
import Verif.Spec.Csv

/-!
# CSV files that `dump` writes, read by `load`
-/

namespace Sqddl.Csv
open Go CsvSpec

/-- quotes doubled -/
def dbl (f : Str) : Str := f.flatMap fun c => if c = '"' then ['"', '"'] else [c]

/-- a field and its text: with or without quotes -/
inductive Text : Str → Str → Prop
  | plain (f) : (∀ c ∈ f, c ≠ '\n' ∧ c ≠ '\r' ∧ c ≠ '"' ∧ c ≠ ',') → Text f f
  | quoted (f) : Text f ('"' :: dbl f ++ ['"'])

theorem text_writeField (space : Str → Bool) (f : Str) : Text f (writeField space f) := by
  unfold writeField
  split
  · exact .quoted f
  · rename_i h
    refine .plain f fun c hc => ?_
    have hf : f ≠ [] := fun h => by simp [h] at hc
    simp only [needsQuotes, hf, ne_eq, not_false_eq_true, decide_true, Bool.true_and,
      Bool.or_eq_true, not_or, Bool.not_eq_true] at h
    have := (List.any_eq_false.1 h.1.2) c hc
    simp at this
    exact ⟨this.1.1.1, this.1.1.2, this.1.2, this.2⟩

theorem dbl_cons (c : Char) (s : Str) :
    dbl (c :: s) = (if c = '"' then ['"', '"'] else [c]) ++ dbl s := by
  simp [dbl]

theorem lines_cons {c : Char} (hc : c ≠ '\r') (s : Str) : lines (c :: s) = c :: lines s := by
  rw [lines]
  · intro h; exact absurd h hc
  · intro _ h; exact absurd h hc

theorem lines_cr {c : Char} (hc : c ≠ '\n') (s : Str) :
    lines ('\r' :: c :: s) = '\r' :: lines (c :: s) := by
  rw [lines]
  · intro _ h; simp at h
  · intro t _ h; simp at h; exact hc h.1

theorem lf_cons {c : Char} (hc : c ≠ '\r') (s : Str) : lf (c :: s) = c :: lf s := by
  rw [lf]
  intro _ h; exact absurd h hc

theorem lf_cr {c : Char} (hc : c ≠ '\n') (s : Str) : lf ('\r' :: c :: s) = '\r' :: lf (c :: s) := by
  rw [lf]
  intro t _ h; simp at h; exact hc h.1

/-- the lines of a quoted field -/
theorem lines_dbl (f r : Str) : lines (dbl f ++ '"' :: r) = dbl (lf f) ++ '"' :: lines r := by
  fun_induction lf f with
  | case1 => exact lines_cons (by decide) r
  | case2 s ih =>
    rw [dbl_cons, dbl_cons, dbl_cons]
    simp only [show ¬ ('\r' = '"') by decide, show ¬ ('\n' = '"') by decide, if_false,
      List.cons_append, List.nil_append]
    rw [lines, ih]
  | case3 c s hc ih =>
    rw [dbl_cons, dbl_cons]
    by_cases h : c = '"'
    · subst h
      simp only [if_true, List.cons_append, List.nil_append]
      rw [lines_cons (by decide), lines_cons (by decide), ih]
    · simp only [h, if_false, List.cons_append, List.nil_append]
      by_cases hr : c = '\r'
      · subst hr
        obtain ⟨x, t, hx, he⟩ : ∃ x t, x ≠ '\n' ∧ dbl s ++ '"' :: r = x :: t := by
          cases s with
          | nil => exact ⟨'"', r, by decide, rfl⟩
          | cons d s =>
            rw [dbl_cons]
            by_cases hd : d = '"'
            · exact ⟨'"', '"' :: (dbl s ++ '"' :: r), by decide, by simp [hd]⟩
            · refine ⟨d, dbl s ++ '"' :: r, ?_, by simp [hd]⟩
              intro e
              exact hc s rfl (by rw [e])
        rw [he, lines_cr hx, ← he, ih]
      · rw [lines_cons hr, ih]

/-- the lines of a field and of what follows it -/
theorem lines_text {f t : Str} (h : Text f t) {x : Char} (hx : x ≠ '\r') (r : Str) :
    ∃ t', Text (lf f) t' ∧ lines (t ++ x :: r) = t' ++ x :: lines r ∧ (t = [] ↔ t' = []) := by
  cases h with
  | plain h =>
    refine ⟨f, ?_, ?_, Iff.rfl⟩
    · have : lf f = f := by
        induction f with
        | nil => rfl
        | cons c f ih => rw [lf_cons (h c (by simp)).2.1, ih fun d hd => h d (by simp [hd])]
      rw [this]; exact .plain f h
    · induction f with
      | nil => exact lines_cons hx r
      | cons c f ih =>
        rw [List.cons_append, lines_cons (h c (by simp)).2.1, ih fun d hd => h d (by simp [hd])]
        rfl
  | quoted =>
    refine ⟨'"' :: dbl (lf f) ++ ['"'], .quoted _, ?_, by simp⟩
    simp only [List.cons_append, List.append_assoc, List.nil_append]
    rw [lines_cons (by decide), lines_dbl, lines_cons hx]

theorem quoted_dbl (f : Str) (x : Char) (r : Str) (hx : x = ',' ∨ x = '\n') :
    quoted (dbl f ++ '"' :: x :: r) = (f, if x = ',' then .field else .record, r) := by
  induction f with
  | nil => rcases hx with rfl | rfl <;> rfl
  | cons c f ih =>
    rw [dbl_cons]
    by_cases h : c = '"'
    · subst h
      simp only [if_true, List.cons_append, List.nil_append]
      rw [quoted, ih]
    · simp only [h, if_false, List.cons_append, List.nil_append]
      rw [quoted, ih]
      all_goals simp [h]

theorem plain_text (f : Str) (h : ∀ c ∈ f, c ≠ '\n' ∧ c ≠ '\r' ∧ c ≠ '"' ∧ c ≠ ',') (x : Char)
    (r : Str) (hx : x = ',' ∨ x = '\n') :
    plain (f ++ x :: r) = (f, if x = ',' then .field else .record, r) := by
  induction f with
  | nil => rcases hx with rfl | rfl <;> rfl
  | cons c f ih =>
    have hc := h c (by simp)
    rw [List.cons_append, plain, if_neg hc.2.2.2, if_neg hc.1, ih fun d hd => h d (by simp [hd])]

/-- a field is read back -/
theorem readField_text {f t : Str} (h : Text f t) (x : Char) (r : Str) (hx : x = ',' ∨ x = '\n') :
    readField (t ++ x :: r) = (f, if x = ',' then .field else .record, r) := by
  unfold readField
  cases h with
  | plain h =>
    rw [if_neg, plain_text f h x r hx]
    cases f with
    | nil => rcases hx with rfl | rfl <;> simp
    | cons c f => simp [(h c (by simp)).2.2.1]
  | quoted =>
    rw [if_pos (by simp)]
    simp only [List.cons_append, List.append_assoc, List.nil_append, List.tail_cons]
    exact quoted_dbl f x r hx

/-- one text for every field -/
inductive Texts : List Str → List Str → Prop
  | nil : Texts [] []
  | cons {f t fs ts} : Text f t → Texts fs ts → Texts (f :: fs) (t :: ts)

theorem texts_length {fs ts : List Str} (h : Texts fs ts) : fs.length = ts.length := by
  induction h with
  | nil => rfl
  | cons _ _ ih => simp [ih]

/-- a record is read back -/
theorem readRecord_texts {fs ts : List Str} (h : Texts fs ts) (hne : fs ≠ []) (r : Str) (n : Nat)
    (hn : fs.length ≤ n) : readRecord n (join b!"," ts ++ '\n' :: r) = (fs, r) := by
  induction h generalizing n with
  | nil => exact absurd rfl hne
  | @cons f t fs ts hf hfs ih =>
    obtain ⟨n, rfl⟩ : ∃ m, n = m + 1 := ⟨n - 1, by simp at hn; omega⟩
    cases hfs with
    | nil =>
      rw [readRecord]
      simp only [join]
      rw [readField_text hf '\n' r (.inr rfl)]
      rfl
    | @cons f2 t2 fs ts h2 h3 =>
      have e : join b!"," (t :: t2 :: ts) ++ '\n' :: r =
          t ++ ',' :: (join b!"," (t2 :: ts) ++ '\n' :: r) := by
        simp [join, List.append_assoc]
      rw [e, readRecord, readField_text hf ',' _ (.inl rfl)]
      simp only [if_true]
      rw [ih (by simp) n (by simp at hn ⊢; omega)]

/-- the lines of a record and of what follows it -/
theorem lines_texts {fs ts : List Str} (h : Texts fs ts) (hne : fs ≠ []) (r : Str) :
    ∃ ts', Texts (fs.map lf) ts' ∧
      lines (join b!"," ts ++ '\n' :: r) = join b!"," ts' ++ '\n' :: lines r := by
  induction h with
  | nil => exact absurd rfl hne
  | @cons f t fs ts hf hfs ih =>
    cases hfs with
    | nil =>
      obtain ⟨t', h1, h2, _⟩ := lines_text hf (x := '\n') (by decide) r
      exact ⟨[t'], .cons h1 .nil, h2⟩
    | @cons f2 t2 fs ts h2 h3 =>
      have e (x : Str) (y : Str) (ys : List Str) (r : Str) :
          join b!"," (x :: y :: ys) ++ '\n' :: r = x ++ ',' :: (join b!"," (y :: ys) ++ '\n' :: r) := by
        simp [join, List.append_assoc]
      obtain ⟨ts', h4, h5⟩ := ih (by simp)
      obtain ⟨t', h6, h7, _⟩ := lines_text hf (x := ',') (by decide) (join b!"," (t2 :: ts) ++ '\n' :: r)
      refine ⟨t' :: ts', .cons h6 h4, ?_⟩
      rw [e, h7, h5]
      cases h4 with
      | cons h8 h9 => rw [e]

theorem text_nil {f : Str} (h : Text f []) : f = [] := by
  cases h with
  | plain => rfl

/-- a visible record does not begin with a line feed -/
theorem texts_head {fs ts : List Str} (h : Texts fs ts) (hv : Visible fs) (r : Str) :
    ∃ c s, c ≠ '\n' ∧ join b!"," ts ++ '\n' :: r = c :: s := by
  cases h with
  | nil => exact absurd rfl hv.1
  | @cons f t fs ts hf hfs =>
    cases hf with
    | quoted =>
      cases ts with
      | nil => exact ⟨'"', _, by decide, rfl⟩
      | cons t2 ts => exact ⟨'"', _, by decide, rfl⟩
    | plain hc =>
      cases f with
      | nil =>
        cases hfs with
        | nil => exact absurd rfl hv.2
        | cons h2 h3 => exact ⟨',', _, by decide, rfl⟩
      | cons c f =>
        cases ts with
        | nil => exact ⟨c, _, (hc c (by simp)).1, rfl⟩
        | cons t2 ts => exact ⟨c, _, (hc c (by simp)).1, rfl⟩

theorem texts_write (space : Str → Bool) (r : List Str) : Texts r (r.map (writeField space)) := by
  induction r with
  | nil => exact .nil
  | cons f r ih => exact .cons (text_writeField space f) ih

/-- the records that are more than empty lines -/
def visible (rs : List (List Str)) : List (List Str) := rs.filter fun r => decide (Visible r)

theorem join_length (ts : List Str) : ts.length ≤ (join b!"," ts).length + 1 := by
  induction ts with
  | nil => simp
  | cons t ts ih =>
    cases ts with
    | nil => simp
    | cons t2 ts => simp [join] at ih ⊢; omega

theorem readRecords_nl (n : Nat) (s : Str) : readRecords n ('\n' :: s) = readRecords n s := by
  cases n with
  | zero => rfl
  | succ n =>
    rw [readRecords, readRecords]
    simp

theorem lf_nil {f : Str} (h : lf f = []) : f = [] := by
  fun_cases lf f with
  | case1 => rfl
  | case2 s => rw [lf] at h; simp at h
  | case3 c s hc => rw [lf] at h <;> simp_all

/-- whether a record is visible does not depend on line ends -/
theorem visible_lf {r : List Str} (h : Visible r) : Visible (r.map lf) := by
  refine ⟨by simpa using h.1, fun e => h.2 ?_⟩
  cases r with
  | nil => exact absurd rfl h.1
  | cons f r =>
    simp at e
    rw [lf_nil e.1, e.2]

theorem readRecords_write (space : Str → Bool) (rs : List (List Str)) (n : Nat)
    (hn : rs.length ≤ n) :
    readRecords (n + 1) (lines (write space rs)) = (visible rs).map (·.map lf) := by
  induction rs generalizing n with
  | nil => rw [write, List.flatMap_nil, lines, readRecords]; rfl
  | cons r rs ih =>
    rw [write, List.flatMap_cons]
    change readRecords (n + 1) (lines (writeRecord space r ++ write space rs)) = _
    rw [writeRecord, List.append_assoc]
    change readRecords (n + 1) (lines (join b!"," _ ++ '\n' :: write space rs)) = _
    by_cases hv : Visible r
    · obtain ⟨ts', h1, h2⟩ := lines_texts (texts_write space r) hv.1 (write space rs)
      rw [h2]
      obtain ⟨c, s, hc, hs⟩ := texts_head h1 (visible_lf hv) (lines (write space rs))
      have hr := readRecord_texts h1 (by simpa using hv.1) (lines (write space rs)) (s.length + 2) (by
        rw [texts_length h1]
        have := join_length ts'
        have hl := congrArg List.length hs
        simp at hl
        omega)
      rw [readRecords]
      rw [hs, List.dropWhile_cons_of_neg (by simp [hc])]
      rw [hs] at hr
      simp only [hr]
      obtain ⟨n, rfl⟩ : ∃ m, n = m + 1 := ⟨n - 1, by simp at hn; omega⟩
      rw [ih n (by simp at hn; omega)]
      simp [visible, hv]
    · have hw : lines (join b!"," (r.map (writeField space)) ++ '\n' :: write space rs) =
          '\n' :: lines (write space rs) := by
        rcases (show r = [] ∨ r = [[]] by
          rcases Decidable.em (r = []) with h | h
          · exact .inl h
          · rcases Decidable.em (r = [[]]) with h2 | h2
            · exact .inr h2
            · exact absurd ⟨h, h2⟩ hv) with rfl | rfl
        · exact lines_cons (by decide) _
        · exact lines_cons (by decide) _
      rw [hw, readRecords_nl, ih n (by simp at hn; omega)]
      simp [visible, hv]

theorem length_write (space : Str → Bool) (rs : List (List Str)) :
    rs.length ≤ (lines (write space rs)).length := by
  induction rs with
  | nil => simp
  | cons r rs ih =>
    rw [write, List.flatMap_cons]
    change _ ≤ (lines (writeRecord space r ++ write space rs)).length
    rw [writeRecord, List.append_assoc]
    change _ ≤ (lines (join b!"," _ ++ '\n' :: write space rs)).length
    cases r with
    | nil =>
      change _ ≤ (lines ('\n' :: write space rs)).length
      rw [lines_cons (by decide)]; simpa using ih
    | cons f r =>
      obtain ⟨ts', _, h2⟩ := lines_texts (texts_write space (f :: r)) (by simp) (write space rs)
      rw [h2]
      simp; omega

/-- A CSV file that `dump` writes, read by `load`: exactly the records, in order, but those that are a
single empty field (or have no fields) are gone, and in the fields every carriage return in front of
a line feed is gone. -/
theorem read_write (space : Str → Bool) (rs : List (List Str)) :
    read (write space rs) = (rs.filter fun r => decide (Visible r)).map fun r => r.map lf :=
  readRecords_write space rs _ (length_write space rs)

example : read (write (fun _ => false)
      [[b!"id", b!"t"], [b!"1", b!"a \"b\", c\nd\r"], [b!"", b!""], [b!"\\.", b!" x"]]) =
    [[b!"id", b!"t"], [b!"1", b!"a \"b\", c\nd\r"], [b!"", b!""], [b!"\\.", b!" x"]] := by
  rw [read_write]; decide

/-- the fields are the same if there is no Windows line end -/
theorem lf_unix {s : Str} (h : UnixText s) : lf s = s := by
  fun_induction lf s with
  | case1 => rfl
  | case2 s ih => exact absurd rfl (h [] s)
  | case3 c s hc ih => rw [ih fun a b e => h (c :: a) b (by rw [e]; rfl)]


end Sqddl.Csv
