import Verif.Spec.Session
import Verif.Props.Quote

/-!
# C52: session settings are restored
-/

namespace Sqddl.Session
open Go SessionSpec

section
variable {V : Type} {eng : Engine V} {fails : Nat → Bool}

theorem query_facts (c : Conn V) (s : Str) :
    (c.query eng fails s).2.value = c.value ∧ (c.query eng fails s).2.saved = c.saved ∧
    (c.query eng fails s).2.calls = c.calls ++ [s] ∧
    (c.saved = none → (c.query eng fails s).2.aborted = c.aborted) ∧
    (∀ old, (c.query eng fails s).1 = some old → old = (eng.shown c.value).getD [] ∧
      (c.query eng fails s).2.aborted = c.aborted) := by
  unfold Conn.query
  split
  · simp +contextual [Conn.error]
  · simp

/-- What a statement that sets the setting does. -/
theorem exec_facts (c : Conn V) (s : Str) :
    (c.exec eng fails s).2.saved = c.saved ∧
    (c.exec eng fails s).2.calls = c.calls ++ [s] ∧
    (c.saved = none → (c.exec eng fails s).2.aborted = c.aborted) ∧
    ((c.exec eng fails s).1 = true → some (c.exec eng fails s).2.value = eng.assign s ∧
      (c.exec eng fails s).2.aborted = c.aborted ∧ c.aborted = false) ∧
    ((c.exec eng fails s).1 = false → (c.exec eng fails s).2.value = c.value ∧
      (fails c.calls.length = true ∨ c.aborted = true ∨ eng.assign s = none)) := by
  unfold Conn.exec
  split
  · rename_i h
    simp only [Conn.refused, Bool.or_eq_true] at h
    simp +contextual [Conn.error]
    grind
  · rename_i h
    simp only [Conn.refused, Bool.or_eq_true, not_or] at h
    cases he : eng.assign s <;> simp +contextual [Conn.error, h]

/-- The text of the value before. -/
def oldText (eng : Engine V) (c : Conn V) : Str := (eng.shown c.value).getD []

theorem set_facts (x : Texts) (value : Str) (c : Conn V) (hs : c.saved = none) :
    let r := setSessionValue eng fails x value c
    r.2.saved = c.saved ∧ r.2.aborted = c.aborted ∧
    (r.1 = none → r.2.value = c.value) ∧
    (r.1 = some none → r.2.value = c.value ∧ r.2.calls = c.calls ++ [x.getter]) ∧
    (∀ old, r.1 = some (some old) → old = oldText eng c ∧ old ≠ value ∧
      some r.2.value = eng.assign (x.setter value) ∧
      r.2.calls = c.calls ++ [x.getter, x.setter value]) := by
  have q := query_facts (eng := eng) (fails := fails) c x.getter
  unfold setSessionValue
  revert q
  cases hq : c.query eng fails x.getter with
  | mk o c1 =>
    intro q
    simp only at q
    cases o with
    | none => simp; exact ⟨q.2.1, q.2.2.2.1 hs, q.1⟩
    | some old =>
      obtain ⟨q1, q2, q3, q4, q5⟩ := q
      have q5 := q5 old rfl
      simp only
      split
      · simp; exact ⟨q2, q5.2, q1, q3⟩
      · rename_i hne
        have e := exec_facts (eng := eng) (fails := fails) c1 (x.setter value)
        revert e
        cases he : c1.exec eng fails (x.setter value) with
        | mk ok c2 =>
          intro e
          simp only at e
          obtain ⟨e1, e2, e3, e4, e5⟩ := e
          have e3 := e3 (by rw [q2, hs])
          cases ok with
          | false =>
            simp
            exact ⟨by rw [e1, q2], by rw [e3, q5.2], by rw [(e5 rfl).1, q1]⟩
          | true =>
            simp
            refine ⟨by rw [e1, q2], by rw [e3, q5.2], q5.1, hne, (e4 rfl).1, ?_⟩
            rw [e2, q3]; simp

theorem restore_noop (x : Texts) (c : Conn V) : restore eng fails x none c = (true, none, c) := rfl

theorem restore_snd (x : Texts) (r : Option Str) (c : Conn V) :
    (restore eng fails x r c).2.1 = none := by
  cases r <;> simp [restore]

theorem restore_some (x : Texts) (old : Str) (c : Conn V) :
    restore eng fails x (some old) c =
      ((c.exec eng fails (x.setter old)).1, none, (c.exec eng fails (x.setter old)).2) := rfl

/-- **C52** outside of transactions.  Suppose the statement that sets the shown text gives back the
value, and the work leaves the setting alone.  Then after the command the setting has its old value,
unless the connection refused exactly the restoring statement; in particular it has its old value
whenever the command succeeds. -/
theorem during_restores (x : Texts) (value : Str) (body : Conn V → Bool × Conn V) (c : Conn V)
    (hs : c.saved = none) (ha : c.aborted = false) (hb : Neutral body)
    (hread : eng.assign (x.setter (oldText eng c)) = some c.value) :
    ((during eng fails x value body c).1 = true →
      (during eng fails x value body c).2.value = c.value) ∧
    ((during eng fails x value body c).2.value = c.value ∨
      ∃ n, fails n = true ∧
        (during eng fails x value body c).2.calls[n]? = some (x.setter (oldText eng c))) := by
  have f := set_facts (eng := eng) (fails := fails) x value c hs
  unfold during
  revert f
  cases hset : setSessionValue eng fails x value c with
  | mk r c1 =>
    simp only
    intro ⟨f1, f2, f3, f4, f5⟩
    cases r with
    | none => simp [f3 rfl]
    | some r =>
      have hb1 := hb c1
      simp only
      revert hb1
      cases hbody : body c1 with
      | mk ok c2 =>
        simp only
        intro ⟨b1, b2, b3, more, b4⟩
        have b3 := b3 (by rw [f1, hs])
        cases r with
        | none =>
          have f4 := f4 rfl
          cases ok <;> simp [restore_noop, b1, f4.1]
        | some old =>
          have f5 := f5 old rfl
          have e := exec_facts (eng := eng) (fails := fails) c2 (x.setter old)
          rw [f5.1] at e
          have h2 : (c2.exec eng fails (x.setter (oldText eng c))).2.value = c.value ∨
              ((c2.exec eng fails (x.setter (oldText eng c))).1 = false ∧ ∃ n, fails n = true ∧
                (c2.exec eng fails (x.setter (oldText eng c))).2.calls[n]? =
                  some (x.setter (oldText eng c))) := by
            cases hok : (c2.exec eng fails (x.setter (oldText eng c))).1 with
            | true =>
              have := (e.2.2.2.1 hok).1
              rw [hread] at this
              exact .inl (Option.some.inj this)
            | false =>
              rcases (e.2.2.2.2 hok).2 with h | h | h
              · exact .inr ⟨rfl, _, h, by rw [e.2.1]; simp⟩
              · rw [b3, f2, ha] at h; cases h
              · rw [hread] at h; cases h
          cases ok with
          | false =>
            simp only [restore_some, f5.1]
            rcases h2 with h | h
            · exact ⟨by simp, .inl h⟩
            · exact ⟨by simp, .inr h.2⟩
          | true =>
            simp only [restore_some, restore_noop, f5.1]
            rcases h2 with h | h
            · exact ⟨fun _ => h, .inl h⟩
            · exact ⟨fun ht => (by rw [h.1] at ht; cases ht), .inr h.2⟩

/-- **C52**: the setting is written at most twice (set and restore), and not at all if it already
had the wanted value; all other statements are those of the work. -/
theorem during_calls (x : Texts) (value : Str) (body : Conn V → Bool × Conn V) (c : Conn V)
    (hb : Neutral body) :
    ∃ (set work back : List Str),
      (during eng fails x value body c).2.calls = c.calls ++ [x.getter] ++ set ++ work ++ back ∧
      (set = [] ∨ set = [x.setter value]) ∧ (back = [] ∨ back = [x.setter (oldText eng c)]) ∧
      (oldText eng c = value → set = [] ∧ back = []) := by
  have q := query_facts (eng := eng) (fails := fails) c x.getter
  unfold during setSessionValue
  revert q
  cases hq : c.query eng fails x.getter with
  | mk o c1 =>
    simp only
    intro ⟨q1, q2, q3, q4, q5⟩
    cases o with
    | none => exact ⟨[], [], [], by simp [q3]⟩
    | some old =>
      have q5 := q5 old rfl
      have q5' : old = oldText eng c := q5.1
      subst q5'
      simp only
      by_cases hv : oldText eng c = value
      · simp only [hv, if_true]
        have hb1 := hb c1
        revert hb1
        cases hbody : body c1 with
        | mk ok c2 =>
          simp only
          intro ⟨b1, b2, b3, more, b4⟩
          cases ok <;> exact ⟨[], more, [], by simp [restore_noop, b4, q3]⟩
      · simp only [hv, if_false]
        have e := exec_facts (eng := eng) (fails := fails) c1 (x.setter value)
        revert e
        cases he : c1.exec eng fails (x.setter value) with
        | mk ok c2 =>
          simp only
          intro ⟨e1, e2, e3, e4, e5⟩
          cases ok with
          | false => exact ⟨[x.setter value], [], [], by simp [e2, q3]⟩
          | true =>
            have hb1 := hb c2
            simp only
            revert hb1
            cases hbody : body c2 with
            | mk ok c3 =>
              simp only
              intro ⟨b1, b2, b3, more, b4⟩
              have e' := exec_facts (eng := eng) (fails := fails) c3 (x.setter (oldText eng c))
              cases ok <;>
                exact ⟨[x.setter value], more, [x.setter (oldText eng c)],
                  by simp [restore_some, restore_noop, e'.2.1, b4, e2, q3]⟩

theorem rollback_restores (ht : eng.transactional = true) {v : V} {c : Conn V}
    (h : c.saved = some v ∨ (c.saved = none ∧ c.value = v)) :
    (c.rollback eng).value = v := by
  unfold Conn.rollback
  rcases h with h | ⟨h, h'⟩
  · simp [h, ht]
  · simp [h, h']

theorem rollback_keeps (ht : eng.transactional = false) (c : Conn V) :
    (c.rollback eng).value = c.value := by
  unfold Conn.rollback
  cases hs : c.saved <;> simp [ht]

theorem rollback_calls (c : Conn V) : ∃ more, (c.rollback eng).calls = c.calls ++ more := by
  unfold Conn.rollback
  cases hs : c.saved with
  | none => exact ⟨[], by simp⟩
  | some w => exact ⟨_, rfl⟩

theorem commit_facts (c : Conn V) :
    (c.commit fails).2.value = c.value ∧ (c.commit fails).2.calls = c.calls ++ [b!"COMMIT"] ∧
    ((c.commit fails).1 = true → (c.commit fails).2.saved = none) ∧
    ((c.commit fails).1 = false → (c.commit fails).2.saved = c.saved) := by
  unfold Conn.commit
  split <;> simp

theorem set_facts_tx (x : Texts) (value : Str) (c : Conn V) :
    let r := setSessionValue eng fails x value c
    r.2.saved = c.saved ∧ (r.1 = none → r.2.value = c.value) ∧
    (eng.aborts = false → r.2.aborted = c.aborted) ∧
    (r.1 = some none → r.2.value = c.value) ∧
    (∀ old, r.1 = some (some old) → old = oldText eng c) := by
  unfold setSessionValue Conn.query
  split
  · rename_i h
    split at h <;> simp at h
    subst h
    simp +contextual [Conn.error]
  · rename_i old c1 h
    split at h <;> simp at h
    obtain ⟨h1, h2⟩ := h
    subst h1 h2
    simp only
    split
    · simp
    · unfold Conn.exec
      split
      · rename_i h
        split at h
        · simp at h; subst h; simp +contextual [Conn.error]
        · split at h <;> simp at h
          subst h; simp +contextual [Conn.error]
      · rename_i h
        split at h
        · simp at h
        · split at h <;> simp at h
          subst h; simp [oldText]

/-- **C52** in a transaction of a database that rolls settings back (Postgres): whatever fails, the
setting has its old value after `loadCSV`. -/
theorem duringTx_restores (ht : eng.transactional = true) (x : Texts) (value : Str)
    (body : Conn V → Bool × Conn V) (c : Conn V) (hb : Neutral body)
    (hread : eng.assign (x.setter (oldText eng c)) = some c.value) :
    (duringTx eng fails x value body c).2.value = c.value := by
  have f := set_facts_tx (eng := eng) (fails := fails) x value { c with saved := some c.value }
  unfold duringTx
  revert f
  simp only
  cases hset : setSessionValue eng fails x value { c with saved := some c.value } with
  | mk r c1 =>
    simp only
    intro ⟨f1, f2, f3, f4, f5⟩
    cases r with
    | none => exact rollback_restores ht (.inl f1)
    | some r =>
      have hb1 := hb c1
      simp only
      revert hb1
      cases hbody : body c1 with
      | mk ok c2 =>
        simp only
        intro ⟨b1, b2, b3, more, b4⟩
        cases ok with
        | false =>
          refine rollback_restores ht (.inl ?_)
          cases r with
          | none => rw [restore_noop, b2, f1]
          | some old => rw [restore_some, (exec_facts _ _).1, b2, f1]
        | true =>
          simp only
          have hr : (restore eng fails x r c2).2.2.saved = some c.value ∧
              ((restore eng fails x r c2).1 = true →
                (restore eng fails x r c2).2.2.value = c.value) := by
            cases r with
            | none => exact ⟨by rw [restore_noop, b2, f1], fun _ => by rw [restore_noop, b1, f4 rfl]⟩
            | some old =>
              have e := exec_facts (eng := eng) (fails := fails) c2 (x.setter old)
              refine ⟨by rw [restore_some, e.1, b2, f1], fun h => ?_⟩
              rw [restore_some] at h ⊢
              have := (e.2.2.2.1 h).1
              rw [f5 old rfl] at this
              rw [show oldText eng { c with saved := some c.value } = oldText eng c from rfl,
                hread] at this
              rw [f5 old rfl]
              exact Option.some.inj this
          have hsnd := restore_snd (eng := eng) (fails := fails) x r c2
          revert hr hsnd
          cases hrest : restore eng fails x r c2 with
          | mk ok r' =>
            obtain ⟨r', c3⟩ := r'
            simp only
            rintro ⟨g1, g2⟩ rfl
            cases ok with
            | false => exact rollback_restores ht (.inl (by rw [restore_noop]; exact g1))
            | true =>
              obtain ⟨k1, k2, k3, k4⟩ := commit_facts (fails := fails) c3
              refine rollback_restores ht ?_
              simp only [restore_noop]
              cases hc : (c3.commit fails).1 with
              | false => exact .inl (by rw [k4 hc, g1])
              | true => exact .inr ⟨k3 hc, by rw [k1, g2 rfl]⟩

/-- **C52** in a transaction of a database that does not roll settings back (MySQL): the setting
has its old value, unless the connection refused exactly the restoring statement. -/
theorem duringTx_restores_other (ht : eng.transactional = false) (hab : eng.aborts = false)
    (x : Texts) (value : Str) (body : Conn V → Bool × Conn V) (c : Conn V)
    (ha : c.aborted = false) (hb : Neutral body)
    (hba : ∀ c, (body c).2.aborted = c.aborted)
    (hread : eng.assign (x.setter (oldText eng c)) = some c.value) :
    ((duringTx eng fails x value body c).1 = true →
      (duringTx eng fails x value body c).2.value = c.value) ∧
    ((duringTx eng fails x value body c).2.value = c.value ∨
      ∃ n, fails n = true ∧
        (duringTx eng fails x value body c).2.calls[n]? = some (x.setter (oldText eng c))) := by
  have f := set_facts_tx (eng := eng) (fails := fails) x value { c with saved := some c.value }
  unfold duringTx
  revert f
  simp only
  cases hset : setSessionValue eng fails x value { c with saved := some c.value } with
  | mk r c1 =>
    simp only
    intro ⟨f1, f2, f3, f4, f5⟩
    cases r with
    | none => simp [rollback_keeps ht, f2 rfl]
    | some r =>
      have hb1 := hb c1
      have hba1 := hba c1
      simp only
      revert hb1 hba1
      cases hbody : body c1 with
      | mk ok c2 =>
        simp only
        intro ⟨b1, b2, b3, more, b4⟩ hba1
        have hr : (restore eng fails x r c2).2.2.value = c.value ∨
            ((restore eng fails x r c2).1 = false ∧ ∃ n, fails n = true ∧
              (restore eng fails x r c2).2.2.calls[n]? = some (x.setter (oldText eng c))) := by
          cases r with
          | none => exact .inl (by rw [restore_noop, b1, f4 rfl])
          | some old =>
            have e := exec_facts (eng := eng) (fails := fails) c2 (x.setter old)
            have ho : old = oldText eng c := f5 old rfl
            subst ho
            rw [restore_some]
            cases hok : (c2.exec eng fails (x.setter (oldText eng c))).1 with
            | true =>
              have := (e.2.2.2.1 hok).1
              rw [hread] at this
              exact .inl (Option.some.inj this)
            | false =>
              rcases (e.2.2.2.2 hok).2 with h | h | h
              · exact .inr ⟨rfl, _, h, by simp only; rw [e.2.1]; simp⟩
              · rw [hba1, f3 hab] at h; simp [ha] at h
              · rw [hread] at h; cases h
        have hsnd := restore_snd (eng := eng) (fails := fails) x r c2
        have roll : ∀ (c : Conn V) (n : Nat) (t : Str), c.calls[n]? = some t →
            (c.rollback eng).calls[n]? = some t := by
          intro c n t h
          obtain ⟨more, hm⟩ := rollback_calls (eng := eng) c
          rw [hm, List.getElem?_append_left (List.getElem?_eq_some_iff.1 h).1, h]
        cases ok with
        | false =>
          simp only [rollback_keeps ht]
          rcases hr with h | ⟨_, n, h1, h2⟩
          · exact ⟨by simp, .inl h⟩
          · exact ⟨by simp, .inr ⟨n, h1, roll _ _ _ h2⟩⟩
        | true =>
          simp only
          revert hr hsnd
          cases hrest : restore eng fails x r c2 with
          | mk ok r' =>
            obtain ⟨r', c3⟩ := r'
            simp only
            intro hr hsnd
            subst hsnd
            cases ok with
            | false =>
              simp only [restore_noop, rollback_keeps ht]
              rcases hr with h | ⟨_, n, h1, h2⟩
              · exact ⟨by simp, .inl h⟩
              · exact ⟨by simp, .inr ⟨n, h1, roll _ _ _ h2⟩⟩
            | true =>
              obtain ⟨k1, k2, k3, k4⟩ := commit_facts (fails := fails) c3
              simp only [restore_noop, rollback_keeps ht]
              rcases hr with h | ⟨h, _⟩
              · exact ⟨fun _ => by rw [k1, h], .inl (by rw [k1, h])⟩
              · cases h

end

/-! ### The settings of the code -/

theorem afterStart_append (p s : Str) : afterStart p (p ++ s) = some s := by
  induction p with
  | nil => rfl
  | cons a p ih => simp [afterStart, ih]

theorem escapeQuote_plain (s : Str) (h : '\'' ∉ s) : escapeQuote '\'' s = s := by
  rw [escapeQuote_eq_doubleAll]
  · induction s with
    | nil => rfl
    | cons c r ih =>
      simp only [List.mem_cons, not_or] at h
      rw [doubleAll, if_neg (fun hc => h.1 hc.symm), ih h.2]
  · rintro ⟨a, c, b, rfl⟩
    simp at h

theorem itoa_digits (n : Nat) : (itoa n).all Char.isDigit = true := by
  rw [List.all_eq_true]
  exact fun c hc => Nat.isDigit_of_mem_toDigits (by decide) (by decide) hc

theorem readNat_itoa (n : Nat) : readNat (itoa n) = some n := by
  unfold readNat
  rw [if_pos ⟨Nat.toDigits_ne_nil, itoa_digits n⟩]
  exact congrArg some Nat.ofDigitChars_ten_toDigits

theorem quote_not_digit {s : Str} (h : s.all Char.isDigit = true) : '\'' ∉ s := by
  intro hm
  have := List.all_eq_true.1 h _ hm
  revert this; decide

theorem readInt_showInt (v : Int) : readInt (showInt v) = some v := by
  cases v with
  | ofNat n =>
    simp only [showInt]
    have hd := itoa_digits n
    have hr := readNat_itoa n
    revert hd hr
    generalize itoa n = s
    intro hd hr
    unfold readInt
    split
    · simp at hd
    · simp [hr]
  | negSucc n =>
    simp only [showInt, readInt, readNat_itoa]
    simp [Int.negSucc_eq]

/-- The four settings with integer values read back what they show. -/
theorem int_reads (x : Texts) (hx : x.after = []) (c : Conn Int) :
    (intEngine x.before).assign (x.setter (oldText (intEngine x.before) c)) = some c.value := by
  have : escapeQuote '\'' (showInt c.value) = showInt c.value := by
    apply escapeQuote_plain
    cases c.value with
    | ofNat n => exact quote_not_digit (itoa_digits n)
    | negSucc n =>
      simp only [showInt, List.mem_cons, not_or]
      exact ⟨by decide, quote_not_digit (itoa_digits _)⟩
  simp [oldText, intEngine, Texts.setter, this, hx, afterStart_append, readInt_showInt]

/-- **C52** for `PRAGMA foreign_keys` (load on SQLite), `foreign_key_checks` and
`lock_wait_timeout` (load and migrate on MySQL) and `LOCK_TIMEOUT` (migrate on SQL Server): when the
command succeeds the setting is as before, and also when it fails, unless the connection refused the
restoring statement. -/
theorem int_settings_restored (x : Texts)
    (hx : x ∈ [sqliteForeignKeys, mysqlForeignKeyChecks, mysqlLockWaitTimeout, mssqlLockTimeout])
    (fails : Nat → Bool) (value : Str) (body : Conn Int → Bool × Conn Int) (c : Conn Int)
    (hs : c.saved = none) (ha : c.aborted = false) (hb : Neutral body) :
    ((during (intEngine x.before) fails x value body c).1 = true →
      (during (intEngine x.before) fails x value body c).2.value = c.value) ∧
    ((during (intEngine x.before) fails x value body c).2.value = c.value ∨
      ∃ n, fails n = true ∧ (during (intEngine x.before) fails x value body c).2.calls[n]? =
        some (x.setter (showInt c.value))) := by
  have := during_restores (fails := fails) x value body c hs ha hb (int_reads x (by
    simp only [List.mem_cons, List.not_mem_nil, or_false] at hx
    rcases hx with rfl | rfl | rfl | rfl <;> rfl) c)
  simpa [oldText, intEngine] using this

/-- **C52** for `foreign_key_checks` while MySQL loads a CSV file. -/
theorem mysql_csv_setting_restored (fails : Nat → Bool) (value : Str)
    (body : Conn Int → Bool × Conn Int) (c : Conn Int) (ha : c.aborted = false)
    (hb : Neutral body) (hba : ∀ c, (body c).2.aborted = c.aborted) :
    let x := mysqlForeignKeyChecks
    ((duringTx (intEngine x.before) fails x value body c).1 = true →
      (duringTx (intEngine x.before) fails x value body c).2.value = c.value) ∧
    ((duringTx (intEngine x.before) fails x value body c).2.value = c.value ∨
      ∃ n, fails n = true ∧ (duringTx (intEngine x.before) fails x value body c).2.calls[n]? =
        some (x.setter (showInt c.value))) := by
  have := duringTx_restores_other (eng := intEngine mysqlForeignKeyChecks.before) (fails := fails)
    rfl rfl mysqlForeignKeyChecks value body c ha hb hba (int_reads _ rfl c)
  simpa [oldText, intEngine] using this

/-- **C52** for `timezone` while Postgres loads a CSV file: always restored, if the name of the time
zone has no two adjacent quotes inside (no time zone has). -/
theorem pg_timezone_restored (fails : Nat → Bool) (value : Str)
    (body : Conn Str → Bool × Conn Str) (c : Conn Str)
    (hb : Neutral body) (hz : ¬ SqlSpec.HasInnerPair '\'' c.value) :
    (duringTx pgTimezoneEngine fails pgTimezone value body c).2.value = c.value := by
  refine duringTx_restores rfl _ _ _ _ hb ?_
  simp only [pgTimezoneEngine, Texts.setter, pgTimezone, oldText, Option.getD_some,
    List.append_assoc, afterStart_append, Option.bind_some]
  rw [(escapeQuote_reads_back_iff_partial '\'' c.value [] (by simp)).2 hz]

/-- Postgres shows every `lock_timeout` but 0 with a unit, so that what it shows is not a number. -/
theorem pgShowMs_unit (n : Nat) (hn : n ≠ 0) :
    readNat (pgShowMs n) = none ∧ '\'' ∉ pgShowMs n ∧
    ∀ k, pgShowMs n ≠ itoa k := by
  have key : ∃ (m : Nat) (u : Str), pgShowMs n = itoa m ++ u ∧ u ≠ [] ∧ u.all Char.isDigit = false ∧
      '\'' ∉ u := by
    unfold pgShowMs
    rw [if_neg hn]
    have hu : ∀ u ∈ pgUnits, u.2 ≠ [] ∧ u.2.all Char.isDigit = false ∧ '\'' ∉ u.2 := by decide
    cases hf : pgUnits.find? fun u => n % u.1 = 0 with
    | some u => exact ⟨n / u.1, u.2, rfl, hu u (List.mem_of_find?_eq_some hf)⟩
    | none =>
      have := List.find?_eq_none.1 hf (1, b!"ms") (by decide)
      simp [Nat.mod_one] at this
  obtain ⟨m, u, he, h1, h2, h3⟩ := key
  rw [he]
  have hall : (itoa m ++ u).all Char.isDigit = false := by simp [h2]
  refine ⟨?_, ?_, ?_⟩
  · unfold readNat
    rw [if_neg]
    rintro ⟨_, h⟩
    rw [hall] at h; cases h
  · rw [List.mem_append, not_or]
    exact ⟨quote_not_digit (itoa_digits m), h3⟩
  · intro k hk
    have := itoa_digits k
    rw [← hk, hall] at this
    cases this

/-- **C52** for `lock_timeout` of Postgres: what is shown can be set again exactly if it is 0. -/
theorem pg_lock_timeout_reads_iff (c : Conn Nat) :
    pgLockTimeoutEngine.assign (pgLockTimeout.setter (oldText pgLockTimeoutEngine c))
      = some c.value ↔ c.value = 0 := by
  constructor
  · intro h
    by_cases h0 : c.value = 0
    · exact h0
    · exfalso
      obtain ⟨h1, h2, _⟩ := pgShowMs_unit _ h0
      simp only [pgLockTimeoutEngine, Texts.setter, pgLockTimeout, oldText, Option.getD_some,
        List.append_nil, afterStart_append, Option.bind_some, escapeQuote_plain _ h2] at h
      unfold pgReadMs at h
      split at h
      · rename_i hc; rw [hc] at h2; simp at h2
      · rw [h1] at h; cases h
  · intro h
    unfold oldText
    rw [h]
    decide +kernel

/-- With `lock_timeout` 0 (the default) migrating on Postgres restores it. -/
theorem pg_lock_timeout_restored_partial (fails : Nat → Bool) (value : Str)
    (body : Conn Nat → Bool × Conn Nat) (c : Conn Nat) (h0 : c.value = 0)
    (hs : c.saved = none) (ha : c.aborted = false) (hb : Neutral body) :
    ((during pgLockTimeoutEngine fails pgLockTimeout value body c).1 = true →
      (during pgLockTimeoutEngine fails pgLockTimeout value body c).2.value = 0) ∧
    ((during pgLockTimeoutEngine fails pgLockTimeout value body c).2.value = 0 ∨
      ∃ n, fails n = true ∧ (during pgLockTimeoutEngine fails pgLockTimeout value body c).2.calls[n]?
        = some b!"SET lock_timeout = 0") := by
  have := during_restores (fails := fails) pgLockTimeout value body c hs ha hb
    ((pg_lock_timeout_reads_iff c).2 h0)
  have ht : pgLockTimeout.setter (oldText pgLockTimeoutEngine c) = b!"SET lock_timeout = 0" := by
    unfold oldText pgLockTimeoutEngine
    simp only [h0]
    decide +kernel
  rw [ht, h0] at this
  exact this

/-- **C52 fails** for every other `lock_timeout` of Postgres (set for a role or a database, for
example): although nothing goes wrong and all migrations succeed, `migrate` reports an error and the
connection goes back to the pool with the lock timeout of the command. -/
theorem pg_lock_timeout_refuted (want : Nat) (body : Conn Nat → Bool × Conn Nat) (c : Conn Nat)
    (h0 : c.value ≠ 0) (hs : c.saved = none) (ha : c.aborted = false) (hb : Neutral body)
    (hok : ∀ c, (body c).1 = true) :
    (during pgLockTimeoutEngine (fun _ => false) pgLockTimeout (itoa want) body c).1 = false ∧
    (during pgLockTimeoutEngine (fun _ => false) pgLockTimeout (itoa want) body c).2.value
      = want := by
  obtain ⟨h1, h2, h3⟩ := pgShowMs_unit _ h0
  have e1 : pgLockTimeoutEngine.assign (pgLockTimeout.setter (pgShowMs c.value)) = none := by
    simp only [pgLockTimeoutEngine, Texts.setter, pgLockTimeout,
      List.append_nil, afterStart_append, Option.bind_some, escapeQuote_plain _ h2]
    unfold pgReadMs
    split
    · rename_i hc; rw [hc] at h2; simp at h2
    · exact h1
  have e2 : pgLockTimeoutEngine.assign (pgLockTimeout.setter (itoa want)) = some want := by
    simp only [pgLockTimeoutEngine, Texts.setter, pgLockTimeout,
      List.append_nil, afterStart_append, Option.bind_some,
      escapeQuote_plain _ (quote_not_digit (itoa_digits want))]
    have := quote_not_digit (itoa_digits want)
    unfold pgReadMs
    split
    · rename_i hc; rw [hc] at this; simp at this
    · exact readNat_itoa want
  obtain ⟨v, sv, ab, l⟩ := c
  simp only at h0 hs ha e1 h3
  subst hs ha
  have hb1 := hb ⟨want, none, false, l ++ [pgLockTimeout.getter, pgLockTimeout.setter (itoa want)]⟩
  have hok1 := hok ⟨want, none, false, l ++ [pgLockTimeout.getter, pgLockTimeout.setter (itoa want)]⟩
  have hne : (pgLockTimeoutEngine.shown v).getD [] ≠ itoa want := h3 want
  simp only [during, setSessionValue, Conn.query, Conn.refused, Bool.or_false, Bool.false_eq_true,
    if_false, hne, Conn.exec, e2, List.append_assoc, List.cons_append, List.nil_append]
  revert hb1 hok1
  generalize body _ = r
  obtain ⟨ok, c2⟩ := r
  simp only
  rintro ⟨b1, b2, b3, more, b4⟩ rfl
  have ha2 : c2.aborted = false := b3 trivial
  have hold : (pgLockTimeoutEngine.shown v).getD [] = pgShowMs v := rfl
  simp [restore_some, restore_noop, Conn.exec, Conn.refused, ha2, hold, e1, Conn.error, b1]

/-! ### Examples -/

/-- Work that sends one statement. -/
def oneStatement {V : Type} (ok : Bool) (c : Conn V) : Bool × Conn V :=
  (ok, { c with calls := c.calls ++ [b!"SELECT 1"] })

theorem oneStatement_neutral {V : Type} (ok : Bool) : Neutral (oneStatement (V := V) ok) :=
  fun _ => ⟨rfl, rfl, fun _ => rfl, _, rfl⟩

example : during (intEngine mysqlLockWaitTimeout.before) (fun _ => false) mysqlLockWaitTimeout b!"5"
    (oneStatement false) { value := 31536000 } =
    (false, { value := 31536000
              calls := [b!"SELECT @@lock_wait_timeout", b!"SET lock_wait_timeout = 5",
                b!"SELECT 1", b!"SET lock_wait_timeout = 31536000"] }) := by decide +kernel

example : during (intEngine mssqlLockTimeout.before) (fun _ => false) mssqlLockTimeout b!"5000"
    (oneStatement true) { value := -1 } =
    (true, { value := -1
             calls := [b!"SELECT @@LOCK_TIMEOUT", b!"SET LOCK_TIMEOUT 5000",
               b!"SELECT 1", b!"SET LOCK_TIMEOUT -1"] }) := by decide +kernel

example : during (intEngine sqliteForeignKeys.before) (fun _ => false) sqliteForeignKeys b!"0"
    (oneStatement true) { value := 0 } =
    (true, { value := 0, calls := [b!"PRAGMA foreign_keys", b!"SELECT 1"] }) := by decide +kernel

example : ¬ SqlSpec.HasInnerPair '\'' b!"Asia/Singapore" :=
  (collapse_eq_iff '\'' _).1 (by decide)

example : duringTx pgTimezoneEngine (fun n => n == 3) pgTimezone b!"UTC" (oneStatement true)
      { value := b!"Asia/Singapore" } =
    (false, { value := b!"Asia/Singapore"
              calls := [b!"SHOW timezone", b!"SET timezone = 'UTC'", b!"SELECT 1",
                b!"SET timezone = 'Asia/Singapore'", b!"ROLLBACK"] }) := by decide +kernel

/-- `lock_timeout` was 5 seconds: `SET lock_timeout = 5s` is rejected. -/
example : during pgLockTimeoutEngine (fun _ => false) pgLockTimeout b!"10000" (oneStatement true)
    { value := 5000 } =
    (false, { value := 10000
              calls := [b!"SHOW lock_timeout", b!"SET lock_timeout = 10000", b!"SELECT 1",
                b!"SET lock_timeout = 5s"] }) := by decide +kernel

example : during pgLockTimeoutEngine (fun _ => false) pgLockTimeout b!"10000" (oneStatement true)
    { value := 0 } =
    (true, { value := 0
             calls := [b!"SHOW lock_timeout", b!"SET lock_timeout = 10000", b!"SELECT 1",
               b!"SET lock_timeout = 0"] }) := by decide +kernel

end Sqddl.Session
