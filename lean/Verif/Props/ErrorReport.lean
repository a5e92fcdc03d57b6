import Verif.Model.ErrorReport
import Verif.Spec.ErrorReport

/-!
# C108: the report of a failed migration says what the database said

The error of a failed migration names the line of the script at which the database found the error,
and has its message, details and hint as they are.
-/

namespace Sqddl
open ReportSpec

/-! ## `fmt.Errorf` -/

theorem errorfGo_plain {s : Str} (h : '%' ∉ s) (arg : Option Str) (r : Str) :
    errorfGo false arg (s ++ r) = (s ++ (errorfGo false arg r).1, (errorfGo false arg r).2) := by
  induction s with
  | nil => rfl
  | cons c s ih =>
    have hc : c ≠ '%' := fun e => h (by rw [e]; exact List.mem_cons_self ..)
    have hs : '%' ∉ s := fun e => h (List.mem_cons_of_mem _ e)
    show errorfGo false arg (c :: (s ++ r)) = _
    rw [errorfGo, if_neg hc]
    dsimp only
    rw [ih hs]
    rfl

theorem errorfGo_end {s : Str} (h : '%' ∉ s) (arg : Option Str) : errorfGo false arg s = (s, false) := by
  have := errorfGo_plain h arg []
  simpa [errorfGo] using this

theorem errorf_wrap {pre tail : Str} (hp : '%' ∉ pre) (ht : '%' ∉ tail) (e : Err) :
    errorfOf (pre ++ b!"%w" ++ tail) e = ⟨pre ++ e.text ++ tail, e.code⟩ := by
  unfold errorfOf
  rw [List.append_assoc, errorfGo_plain hp]
  have h1 : errorfGo false (some e.text) (b!"%w" ++ tail) = (e.text ++ tail, true) := by
    show errorfGo false (some e.text) ('%' :: 'w' :: tail) = _
    rw [errorfGo, if_pos rfl, errorfGo, if_neg (by decide), if_neg (by decide)]
    dsimp only
    rw [errorfGo_end ht]
    rfl
  rw [h1]
  simp

/-- the error is wrapped whatever is behind it -/
theorem errorf_code {pre : Str} (hp : '%' ∉ pre) (tail : Str) (e : Err) :
    (errorfOf (pre ++ b!"%w" ++ tail) e).code = e.code := by
  unfold errorfOf
  rw [List.append_assoc, errorfGo_plain hp]
  have h1 : (errorfGo false (some e.text) (b!"%w" ++ tail)).2 = true := by
    show (errorfGo false (some e.text) ('%' :: 'w' :: tail)).2 = _
    rw [errorfGo, if_pos rfl, errorfGo, if_neg (by decide), if_neg (by decide)]
    simp
  dsimp only
  rw [h1, if_pos rfl]

theorem digitChar_ne (n : Nat) : Nat.digitChar (n % 10) ≠ '%' := by
  have : ∀ m : Fin 10, Nat.digitChar m.val ≠ '%' := by decide
  exact this ⟨n % 10, Nat.mod_lt _ (by decide)⟩

theorem toDigits_free (n : Nat) : '%' ∉ Nat.toDigits 10 n := by
  have core : ∀ fuel n (acc : Str), '%' ∉ acc → '%' ∉ Nat.toDigitsCore 10 fuel n acc := by
    intro fuel
    induction fuel with
    | zero => intro n acc h; exact h
    | succ k ih =>
      intro n acc h
      unfold Nat.toDigitsCore
      dsimp only
      have h2 : '%' ∉ Nat.digitChar (n % 10) :: acc := by
        rw [List.mem_cons, not_or]
        exact ⟨fun e => digitChar_ne _ e.symm, h⟩
      by_cases e : n / 10 = 0
      · rw [if_pos e]; exact h2
      · rw [if_neg e]; exact ih _ _ h2
  exact core _ _ _ (by decide)

theorem linePrefix_free (n : Nat) : '%' ∉ b!"line " ++ itoa n ++ b!": " := by
  simp only [List.mem_append, not_or]
  exact ⟨⟨by decide, toDigits_free n⟩, by decide⟩

/-! ## Lines -/

theorem beforeChar_ascii (n : Nat) (q : Str) (h : ∀ c ∈ q.take (n + 1), c.toNat < 128) :
    beforeChar n q = q.take n := by
  induction q generalizing n with
  | nil => cases n <;> rfl
  | cons c q ih =>
    have hc : startsChar c = true := by
      have := h c (by simp)
      simp [startsChar, this]
    cases n with
    | zero => rw [beforeChar, if_pos hc]; rfl
    | succ n =>
      rw [beforeChar, if_pos hc, ih n (fun d hd => h d (by
        rw [List.take_succ_cons]; exact List.mem_cons_of_mem _ hd))]
      rfl

theorem count_take_succ {q : Str} {n : Nat} (h : q[n]? ≠ some '\n') :
    (q.take (n + 1)).count '\n' = (q.take n).count '\n' := by
  rw [List.take_add_one, List.count_append]
  cases hq : q[n]? with
  | none => simp
  | some c =>
    have : c ≠ '\n' := fun e => h (by rw [hq, e])
    simp [this]

theorem line_ascii {q : Str} {pos : Nat} (h1 : 1 ≤ pos) (ha : ∀ c ∈ q.take pos, c.toNat < 128)
    (hn : q[pos - 1]? ≠ some '\n') : (q.take pos).count '\n' + 1 = lineOf q pos := by
  unfold lineOf
  obtain ⟨n, rfl⟩ : ∃ n, pos = n + 1 := ⟨pos - 1, by omega⟩
  rw [Nat.add_sub_cancel] at hn ⊢
  rw [beforeChar_ascii n q ha, count_take_succ hn]

/-- the bytes in front of a character are at least as many as the characters -/
theorem beforeChar_take (n : Nat) (q : Str) (h : n ≤ q.length) :
    ∃ m, n ≤ m ∧ beforeChar n q = q.take m := by
  induction q generalizing n with
  | nil =>
    have : n = 0 := by simpa using h
    subst this
    exact ⟨0, Nat.le_refl _, by simp [beforeChar]⟩
  | cons c q ih =>
    cases n with
    | zero =>
      by_cases hc : startsChar c = true
      · exact ⟨0, Nat.le_refl _, by rw [beforeChar, if_pos hc]; rfl⟩
      · obtain ⟨m, _, hm⟩ := ih 0 (Nat.zero_le _)
        exact ⟨m + 1, Nat.zero_le _, by rw [beforeChar, if_neg hc, hm]; rfl⟩
    | succ n =>
      by_cases hc : startsChar c = true
      · obtain ⟨m, h1, hm⟩ := ih n (by simpa using h)
        exact ⟨m + 1, by omega, by rw [beforeChar, if_pos hc, hm]; rfl⟩
      · by_cases hl : n + 1 ≤ q.length
        · obtain ⟨m, h1, hm⟩ := ih (n + 1) hl
          exact ⟨m + 1, by omega, by rw [beforeChar, if_neg hc, hm]; rfl⟩
        · have e : n = q.length := by simp at h; omega
          refine ⟨n + 1, Nat.le_refl _, ?_⟩
          rw [beforeChar, if_neg hc]
          have all : ∀ (k : Nat) (s : Str), s.length ≤ k → beforeChar k s = s := by
            intro k s
            induction s generalizing k with
            | nil => intro _; cases k <;> rfl
            | cons d s ih2 =>
              intro hk
              cases k with
              | zero => simp at hk
              | succ k =>
                have hk' : s.length ≤ k := by simpa using hk
                rw [beforeChar]
                by_cases hd : startsChar d = true
                · rw [if_pos hd, ih2 k hk']
                · rw [if_neg hd, ih2 (k + 1) (by omega)]
          rw [all (n + 1) q (by omega), e, List.take_of_length_le (by simp)]

theorem count_take_le {q : Str} {m n : Nat} (h : m ≤ n) :
    (q.take m).count '\n' ≤ (q.take n).count '\n' := by
  have : q.take m = (q.take n).take m := by rw [List.take_take, Nat.min_eq_left h]
  rw [this]
  exact (List.take_sublist _ _).count_le _

/-- the line is never behind the one of the error -/
theorem line_le {q : Str} {pos : Nat} (h1 : 1 ≤ pos) (hl : pos ≤ q.length) (hn : q[pos - 1]? ≠ some '\n') :
    (q.take pos).count '\n' + 1 ≤ lineOf q pos := by
  unfold lineOf
  obtain ⟨n, rfl⟩ : ∃ n, pos = n + 1 := ⟨pos - 1, by omega⟩
  rw [Nat.add_sub_cancel] at hn ⊢
  obtain ⟨m, hm, e⟩ := beforeChar_take n q (by omega)
  rw [e, count_take_succ hn]
  exact Nat.add_le_add_right (count_take_le hm) 1

/-! ## Postgres -/

theorem tail_free {p : PqError} (hd : '%' ∉ p.detail) (hh : '%' ∉ p.hint) :
    '%' ∉ (if p.detail ≠ [] then b!"\ndetail: " ++ p.detail else []) ++
      (if p.hint ≠ [] then b!"\nhint: " ++ p.hint else []) := by
  have a1 : '%' ∉ (if p.detail ≠ [] then b!"\ndetail: " ++ p.detail else []) := by
    by_cases h : p.detail ≠ []
    · rw [if_pos h, List.mem_append, not_or]; exact ⟨by decide, hd⟩
    · rw [if_neg h]; decide
  have a2 : '%' ∉ (if p.hint ≠ [] then b!"\nhint: " ++ p.hint else []) := by
    by_cases h : p.hint ≠ []
    · rw [if_pos h, List.mem_append, not_or]; exact ⟨by decide, hh⟩
    · rw [if_neg h]; decide
  rw [List.mem_append, not_or]
  exact ⟨a1, a2⟩

theorem tail_eq (d h : Str) :
    (if d ≠ [] then b!"\ndetail: " ++ d else []) ++ (if h ≠ [] then b!"\nhint: " ++ h else []) =
    (if d = [] then [] else b!"\ndetail: " ++ d) ++ (if h = [] then [] else b!"\nhint: " ++ h) := by
  by_cases h1 : d = [] <;> by_cases h2 : h = [] <;> simp [h1, h2]

/-- C108: the report of an error of Postgres at a position of the script names the line of the
position and has the message, the details and the hint; it is still seen to be the same error.  The
script must have no other than ASCII characters up to there, the position must not be behind its end,
and there must be no percent sign in the details and the hint. -/
theorem pg_report_partial {e : Err} {p : PqError} {query : Str} {pos : Nat}
    (hp : p.position = some pos) (h1 : 1 ≤ pos) (hl : pos ≤ query.length)
    (ha : ∀ c ∈ query.take pos, c.toNat < 128) (hn : query[pos - 1]? ≠ some '\n')
    (hd : '%' ∉ p.detail) (hh : '%' ∉ p.hint) :
    pgAnnotate e (some p) query =
      some ⟨pgReport (some (lineOf query pos)) e.text p.detail p.hint, e.code⟩ := by
  unfold pgAnnotate
  dsimp only
  rw [hp]
  dsimp only
  rw [if_neg (by omega), errorf_wrap (linePrefix_free _) (tail_free hd hh), line_ascii h1 ha hn, tail_eq]
  simp only [pgReport, itoa, List.append_assoc]

/-- C108: without a position the report has the message, the details and the hint. -/
theorem pg_report_nowhere_partial {e : Err} {p : PqError} (query : Str) (hp : p.position = none)
    (hd : '%' ∉ p.detail) (hh : '%' ∉ p.hint) :
    pgAnnotate e (some p) query = some ⟨pgReport none e.text p.detail p.hint, e.code⟩ := by
  unfold pgAnnotate
  dsimp only
  rw [hp]
  dsimp only
  by_cases h : p.detail = [] ∧ p.hint = []
  · rw [if_pos h]
    simp [pgReport, h.1, h.2]
  · rw [if_neg h]
    have := errorf_wrap (pre := []) (by decide) (tail_free hd hh) e
    rw [List.nil_append] at this
    rw [this, tail_eq]
    simp only [pgReport, List.append_assoc]

/-- C108: in any script, the line in the report is never behind the line of the error. -/
theorem pg_line_le {e r : Err} {p : PqError} {query : Str} {pos : Nat} (hp : p.position = some pos)
    (h1 : 1 ≤ pos) (hn : query[pos - 1]? ≠ some '\n') (hr : pgAnnotate e (some p) query = some r) :
    ∃ n text, r.text = b!"line " ++ Nat.toDigits 10 n ++ b!": " ++ text ∧ 1 ≤ n ∧ n ≤ lineOf query pos := by
  unfold pgAnnotate at hr
  dsimp only at hr
  rw [hp] at hr
  dsimp only at hr
  by_cases hl : query.length < pos
  · rw [if_pos hl] at hr; cases hr
  · rw [if_neg hl] at hr
    cases hr
    refine ⟨(query.take pos).count '\n' + 1, ?_, ?_, by omega, line_le h1 (by omega) hn⟩
    · exact (errorfGo false (some e.text) (b!"%w" ++
        ((if p.detail ≠ [] then b!"\ndetail: " ++ p.detail else []) ++
          (if p.hint ≠ [] then b!"\nhint: " ++ p.hint else [])))).1
    · unfold errorfOf
      dsimp only
      rw [List.append_assoc, errorfGo_plain (linePrefix_free _)]
      rfl

/-- C108: the annotation fails exactly if the position is behind the end of the script. -/
theorem pg_panics_iff (e : Err) (pq : Option PqError) (query : Str) :
    pgAnnotate e pq query = none ↔
      ∃ p pos, pq = some p ∧ p.position = some pos ∧ query.length < pos := by
  unfold pgAnnotate
  cases pq with
  | none => simp
  | some p =>
    dsimp only
    cases hp : p.position with
    | none =>
      dsimp only
      constructor
      · intro h
        by_cases c : p.detail = [] ∧ p.hint = []
        · rw [if_pos c] at h; cases h
        · rw [if_neg c] at h; cases h
      · rintro ⟨p', pos, e1, e2, _⟩
        cases e1
        rw [hp] at e2
        cases e2
    | some pos =>
      dsimp only
      by_cases h : query.length < pos
      · rw [if_pos h]
        exact ⟨fun _ => ⟨p, pos, rfl, hp, h⟩, fun _ => rfl⟩
      · rw [if_neg h]
        refine ⟨fun h' => (by cases h'), ?_⟩
        rintro ⟨p', pos', e1, e2, h'⟩
        cases e1
        rw [hp] at e2
        cases e2
        exact absurd h' h

/-! ## SQL Server -/

/-- C108: the report of an error of SQL Server has its line, its message, and all messages if there
are several; it is still seen to be the same error. -/
theorem ms_report_partial {e : Err} {m : MssqlError} (h : ∀ s ∈ m.all, '%' ∉ s) :
    mssqlAnnotate e (some m) = ⟨msReport m.lineNo e.text m.all, e.code⟩ := by
  unfold mssqlAnnotate
  dsimp only
  have hf : '%' ∉ (if m.all.length > 1 then (m.all.map (fun s => b!"\n" ++ s)).flatten else []) := by
    by_cases hl : m.all.length > 1
    · rw [if_pos hl]
      intro hm
      rw [List.mem_flatten] at hm
      obtain ⟨l, hl', hm⟩ := hm
      obtain ⟨s, hs, rfl⟩ := List.mem_map.mp hl'
      rw [List.mem_append] at hm
      rcases hm with hm | hm
      · exact absurd hm (by decide)
      · exact h s hs hm
    · rw [if_neg hl]; decide
  have e1 : b!"line " ++ itoa m.lineNo ++ b!": %w" = b!"line " ++ itoa m.lineNo ++ b!": " ++ b!"%w" := by simp
  rw [e1, errorf_wrap (linePrefix_free _) hf]
  unfold msReport itoa
  rcases hA : m.all with _ | ⟨a, _ | ⟨b, r⟩⟩
  · simp
  · simp
  · rw [if_pos (by simp)]
    simp [List.flatMap]

/-! ## Waiting for locks -/

/-- C108: a migration that failed because it could not get a lock in time is still recognised as such
when the error has been annotated, in Postgres and in SQL Server, whatever the error says: it is
tried again. -/
theorem lock_timeout_kept (d : Dialect) (e : Err) (pq : Option PqError) (ms : Option MssqlError)
    (query : Str) :
    (∀ r, pgAnnotate e pq query = some r → isLockTimeout d r = isLockTimeout d e) ∧
    isLockTimeout d (mssqlAnnotate e ms) = isLockTimeout d e := by
  have same : ∀ r : Err, r.code = e.code → isLockTimeout d r = isLockTimeout d e := by
    intro r h
    unfold isLockTimeout
    rw [h]
  constructor
  · intro r hr
    refine same r ?_
    unfold pgAnnotate at hr
    cases pq with
    | none => cases hr; rfl
    | some p =>
      dsimp only at hr
      cases hp : p.position with
      | none =>
        rw [hp] at hr
        dsimp only at hr
        by_cases c : p.detail = [] ∧ p.hint = []
        · rw [if_pos c] at hr; cases hr; rfl
        · rw [if_neg c] at hr
          cases hr
          have := errorf_code (pre := []) (by decide)
            ((if p.detail ≠ [] then b!"\ndetail: " ++ p.detail else []) ++
              (if p.hint ≠ [] then b!"\nhint: " ++ p.hint else [])) e
          rw [List.nil_append] at this
          exact this
      | some pos =>
        rw [hp] at hr
        dsimp only at hr
        by_cases h : query.length < pos
        · rw [if_pos h] at hr; cases hr
        · rw [if_neg h] at hr
          cases hr
          exact errorf_code (linePrefix_free _) _ e
  · refine same _ ?_
    unfold mssqlAnnotate
    cases ms with
    | none => rfl
    | some m =>
      dsimp only
      have e1 : b!"line " ++ itoa m.lineNo ++ b!": %w" = b!"line " ++ itoa m.lineNo ++ b!": " ++ b!"%w" := by
        simp
      rw [e1]
      exact errorf_code (linePrefix_free _) _ e

/-- exactly the codes of the databases for a lock that was not granted in time -/
theorem lock_timeout_codes (d : Dialect) (e : Err) :
    isLockTimeout d e = true ↔
      (d = .postgres ∧ e.code = some b!"55P03") ∨ (d = .mysql ∧ e.code = some b!"1205") ∨
      (d = .sqlserver ∧ e.code = some b!"1222") ∨ (d = .oracle ∧ e.code = some b!"4021") := by
  unfold isLockTimeout
  cases e.code with
  | none => simp
  | some c => cases d <;> simp

/-! ## Examples -/

/-- a misspelled word on the second line -/
example : pgAnnotate ⟨b!"pq: syntax error at or near \"TABEL\"", some b!"42601"⟩
    (some ⟨some 29, [], []⟩) b!"CREATE TABLE t (a INT);\nDROP TABEL t;" =
    some ⟨b!"line 2: pq: syntax error at or near \"TABEL\"", some b!"42601"⟩ := by decide

example : lineOf b!"CREATE TABLE t (a INT);\nDROP TABEL t;" 29 = 2 ∧
    (b!"CREATE TABLE t (a INT);\nDROP TABEL t;")[28]? = some ' ' := by decide

/-- several messages of SQL Server -/
example : mssqlAnnotate ⟨b!"mssql: b", some b!"1222"⟩ (some ⟨3, [b!"a", b!"b"]⟩) =
    ⟨b!"line 3: mssql: b\na\nb", some b!"1222"⟩ := by decide

/-! ## Reports that are wrong -/

/-- A script that ends too early: Postgres names the position behind its last character, and the
annotation does not return.  The report of the error is lost. -/
theorem pg_end_refuted {query : Str} (e : Err) {p : PqError} (ha : ∀ c ∈ query, c.toNat < 128)
    (hp : p.position = some (chars query + 1)) : pgAnnotate e (some p) query = none := by
  rw [pg_panics_iff]
  refine ⟨p, _, rfl, hp, ?_⟩
  have : chars query = query.length := by
    unfold chars
    rw [List.countP_eq_length]
    intro c hc
    simp [startsChar, ha c hc]
  omega

example : chars b!"CREATE TABLE t (a INT" + 1 = 22 := by decide

/-- A comment with an umlaut in front of the error: the line is the one above the error. -/
theorem pg_line_refuted :
    lineOf b!"-- Ã¼Ã¼Ã¼\n??" 8 = 2 ∧
    pgAnnotate ⟨b!"pq: syntax error", none⟩ (some ⟨some 8, [], []⟩) b!"-- Ã¼Ã¼Ã¼\n??" =
      some ⟨b!"line 1: pq: syntax error", none⟩ := by decide

/-- A percent sign in the details. -/
theorem pg_detail_refuted :
    pgAnnotate ⟨b!"pq: duplicate key", some b!"23505"⟩
      (some ⟨none, b!"Key (discount)=(5%) already exists.", []⟩) [] =
    some ⟨b!"pq: duplicate key\ndetail: Key (discount)=(5%!)(MISSING) already exists.", some b!"23505"⟩ := by
  decide

end Sqddl
