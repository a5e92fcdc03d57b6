import Verif.Spec.Batch

/-!
# C45, C46: batch inserts
-/

namespace Sqddl.BatchInsert
open BatchSpec

variable {α : Type}

/-! ## the loop -/

theorem inserts_append (a b : List (Call α)) :
    BatchSpec.inserts (a ++ b) = BatchSpec.inserts a ++ BatchSpec.inserts b := by
  induction a with
  | nil => rfl
  | cons c a ih => cases c <;> simp [BatchSpec.inserts, ih]

theorem updates_append (a b : List (Call α)) :
    BatchSpec.updates (a ++ b) = BatchSpec.updates a ++ BatchSpec.updates b := by
  induction a with
  | nil => rfl
  | cons c a ih => cases c <;> simp [BatchSpec.updates, ih]

/-- batches are as large as possible -/
def Full (n : Nat) : List (List (List α)) → Prop
  | [] => True
  | [b] => 1 ≤ b.length ∧ b.length ≤ n
  | b :: bs => b.length = n ∧ Full n bs

theorem Full.cons {n : Nat} {b : List (List α)} {bs} (hb : b.length = n) (h1 : 1 ≤ n) (h : Full n bs) :
    Full n (b :: bs) := by
  cases bs with
  | nil => simp [Full]; omega
  | cons c bs => exact ⟨hb, h⟩

theorem Full.mem {n : Nat} {bs : List (List (List α))} (hn : 1 ≤ n) (h : Full n bs) :
    ∀ b ∈ bs, 1 ≤ b.length ∧ b.length ≤ n := by
  induction bs with
  | nil => simp
  | cons c bs ih =>
    intro b hb
    cases bs with
    | nil => simp at hb; subst hb; exact h
    | cons d bs =>
      simp only [List.mem_cons] at hb
      rcases hb with rfl | hb
      · have := h.1; omega
      · exact ih h.2 b (by simpa using hb)

theorem loop_spec (bi : BatchInsert) (eof : Bool) (hs : 1 ≤ bi.size) (rows : List (List α))
    (cur : List (List α)) (hc : (cur.length : Int) < bi.size) :
    ∃ bs : List (List (List α)),
      bi.loop eof cur.length cur.flatten rows = bs.flatMap (fun b => bi.batchCalls b.length b.flatten) ∧
      (eof = true → bs.flatten = cur ++ rows) ∧ bs.flatten <+: cur ++ rows ∧
      Full bi.size.toNat bs := by
  induction rows generalizing cur with
  | nil =>
    rw [loop]
    cases eof
    · exact ⟨[], by simp, by simp, by simp, trivial⟩
    · by_cases h : cur.length > 0
      · refine ⟨[cur], by simp [h], by simp, by simp, ?_⟩
        simp only [Full]; omega
      · have : cur = [] := by cases cur <;> simp_all
        subst this
        exact ⟨[], by simp, by simp, by simp, trivial⟩
  | cons r rows ih =>
    rw [loop]
    split
    · rename_i hge
      have hlen : (cur ++ [r]).length = bi.size.toNat := by simp; omega
      obtain ⟨bs, h1, h2, h3, h4⟩ := ih [] (by simp; omega)
      refine ⟨(cur ++ [r]) :: bs, ?_, ?_, ?_, Full.cons hlen (by omega) h4⟩
      · rw [List.flatMap_cons, hlen, ← h1]; simp
      · intro he; simp [h2 he]
      · simp only [List.flatten_cons, List.append_assoc, List.singleton_append]
        rw [show cur ++ r :: bs.flatten = (cur ++ [r]) ++ bs.flatten by simp,
          show cur ++ r :: rows = (cur ++ [r]) ++ rows by simp]
        exact (List.prefix_append_right_inj _).2 (by simpa using h3)
    · rename_i hlt
      obtain ⟨bs, h1, h2, h3, h4⟩ := ih (cur ++ [r]) (by simp; omega)
      refine ⟨bs, ?_, ?_, ?_, h4⟩
      · rw [← h1]; simp
      · intro he; simp [h2 he]
      · simpa using h3

theorem inserts_batches (bi : BatchInsert) (bs : List (List (List α))) :
    BatchSpec.inserts (bs.flatMap fun b => bi.batchCalls b.length b.flatten) =
      bs.map fun b => (b.length, b.flatten) := by
  induction bs with
  | nil => rfl
  | cons b bs ih =>
    rw [List.flatMap_cons, inserts_append, ih]
    unfold batchCalls
    split <;> simp [BatchSpec.inserts]

theorem updates_batches (bi : BatchInsert) (bs : List (List (List α))) :
    BatchSpec.updates (bs.flatMap fun b => bi.batchCalls b.length b.flatten) =
      if bi.updates then bs.map fun b => (b.length, b.flatten) else [] := by
  induction bs with
  | nil => simp [BatchSpec.updates]
  | cons b bs ih =>
    rw [List.flatMap_cons, updates_append, ih]
    unfold batchCalls
    split <;> simp [BatchSpec.updates]

theorem execute_prefix (ok : Nat → Bool) (n : Nat) (cs : List (Call α)) :
    (execute ok n cs).1 <+: cs ∧ ((execute ok n cs).2 = true → (execute ok n cs).1 = cs) := by
  induction cs generalizing n with
  | nil => simp [execute]
  | cons c cs ih =>
    rw [execute]
    split
    · dsimp only
      refine ⟨?_, fun h => by rw [(ih _).2 h]⟩
      simpa using (ih (n + 1)).1
    · simp

theorem inserts_other (l : List (Call α)) (h : ∀ c ∈ l, ∀ n a, c ≠ .insert n a) :
    BatchSpec.inserts l = [] := by
  induction l with
  | nil => rfl
  | cons c l ih =>
    cases c <;> simp_all [BatchSpec.inserts]

theorem inserts_calls (bi : BatchInsert) (eof : Bool) (rows : List (List α)) :
    BatchSpec.inserts (bi.calls eof rows) = BatchSpec.inserts (bi.loop eof 0 [] rows) := by
  unfold calls
  simp only [inserts_append]
  rw [inserts_other (if bi.identities ≠ [] ∧ bi.dialect = .sqlserver then [.identityOn] else []) (by
      intro c hc; split at hc <;> simp at hc; subst hc; simp),
    inserts_other [.prepareInsert] (by simp),
    inserts_other (if bi.updates then [.prepareUpdate] else []) (by
      intro c hc; split at hc <;> simp at hc; subst hc; simp)]
  rw [inserts_other (if eof then _ else []) (by
      intro c hc
      split at hc
      · simp only [List.mem_append] at hc
        rcases hc with hc | hc
        · split at hc <;> simp at hc; subst hc; simp
        · split at hc <;> simp at hc
          obtain ⟨x, _, rfl⟩ := hc; simp
      · simp at hc)]
  simp

theorem updates_other (l : List (Call α)) (h : ∀ c ∈ l, ∀ n a, c ≠ .update n a) :
    BatchSpec.updates l = [] := by
  induction l with
  | nil => rfl
  | cons c l ih =>
    cases c <;> simp_all [BatchSpec.updates]

theorem updates_calls (bi : BatchInsert) (eof : Bool) (rows : List (List α)) :
    BatchSpec.updates (bi.calls eof rows) = BatchSpec.updates (bi.loop eof 0 [] rows) := by
  unfold calls
  simp only [updates_append]
  rw [updates_other (if bi.identities ≠ [] ∧ bi.dialect = .sqlserver then [.identityOn] else []) (by
      intro c hc; split at hc <;> simp at hc; subst hc; simp),
    updates_other [.prepareInsert] (by simp),
    updates_other (if bi.updates then [.prepareUpdate] else []) (by
      intro c hc; split at hc <;> simp at hc; subst hc; simp)]
  rw [updates_other (if eof then _ else []) (by
      intro c hc
      split at hc
      · simp only [List.mem_append] at hc
        rcases hc with hc | hc
        · split at hc <;> simp at hc; subst hc; simp
        · split at hc <;> simp at hc
          obtain ⟨x, _, rfl⟩ := hc; simp
      · simp at hc)]
  simp

theorem inserts_prefix {a b : List (Call α)} (h : a <+: b) :
    BatchSpec.inserts a <+: BatchSpec.inserts b := by
  obtain ⟨c, rfl⟩ := h
  rw [inserts_append]; exact List.prefix_append _ _

theorem updates_prefix {a b : List (Call α)} (h : a <+: b) :
    BatchSpec.updates a <+: BatchSpec.updates b := by
  obtain ⟨c, rfl⟩ := h
  rw [updates_append]; exact List.prefix_append _ _

/-- The number of columns leaves room for at least one row per statement. -/
def Fits (bi : BatchInsert) : Prop :=
  bi.columns ≠ [] ∧ ∀ m, maxParams bi.dialect = some m → 2 * bi.columns.length ≤ m

theorem maxParams_eq (d : Dialect) : maxParams d = if paramLimit d > 0 then some (paramLimit d) else none := by
  cases d <;> rfl

theorem size_pos (bi : BatchInsert) (h : Fits bi) : 1 ≤ bi.size := by
  have hc : 0 < bi.columns.length := List.length_pos_iff.2 h.1
  have hm := h.2
  rw [maxParams_eq] at hm
  unfold size
  dsimp only
  have hb : 1 ≤ (if bi.dialect = .sqlserver ∧ (if bi.batchsize ≤ 0 then (500 : Int) else bi.batchsize) > 25
      then 25 else if bi.batchsize ≤ 0 then (500 : Int) else bi.batchsize) := by
    repeat' split
    all_goals omega
  generalize (if bi.dialect = .sqlserver ∧ (if bi.batchsize ≤ 0 then (500 : Int) else bi.batchsize) > 25
      then 25 else if bi.batchsize ≤ 0 then (500 : Int) else bi.batchsize) = b at hb ⊢
  split
  · rename_i hl
    have h2 : 2 ≤ paramLimit bi.dialect / bi.columns.length := by
      rw [Nat.le_div_iff_mul_le hc]
      exact hm _ (by simp [hl])
    generalize paramLimit bi.dialect / bi.columns.length = q at h2 ⊢
    split <;> omega
  · exact hb

/-- a full batch stays below the limit -/
theorem size_params (bi : BatchInsert) (h : Fits bi) (m : Nat) (hm : maxParams bi.dialect = some m)
    (n : Nat) (hn : n ≤ bi.size.toNat) : n * bi.columns.length ≤ m := by
  have hc : 0 < bi.columns.length := List.length_pos_iff.2 h.1
  rw [maxParams_eq] at hm
  split at hm
  · rename_i hl
    simp at hm; subst hm
    have : bi.size ≤ (paramLimit bi.dialect / bi.columns.length : Nat) - 1 := by
      unfold size
      dsimp only
      rw [if_pos hl]
      generalize paramLimit bi.dialect / bi.columns.length = q
      split <;> omega
    have h3 : n ≤ paramLimit bi.dialect / bi.columns.length := by
      generalize paramLimit bi.dialect / bi.columns.length = q at this ⊢
      omega
    exact (Nat.le_div_iff_mul_le hc).1 h3
  · simp at hm

/-- C45.  Whatever fails: the rows sent are an initial part of the rows produced by the callback, in
order, each once and complete; all of them if the batch insert succeeds.  Every statement has
placeholders for exactly its arguments and stays within the database's limit. -/
theorem batchInsert_sends_rows (bi : BatchInsert) (ok : Nat → Bool) (eof : Bool) (rows : List (List α))
    (hw : ∀ r ∈ rows, r.length = bi.columns.length) (hf : Fits bi) :
    ∃ bs : List (List (List α)),
      bs.flatten <+: rows ∧ ((bi.exec ok eof rows).2 = .ok → bs.flatten = rows) ∧
      BatchSpec.inserts (bi.exec ok eof rows).1 = bs.map (fun b => (b.length, b.flatten)) ∧
      (∀ b ∈ bs, 1 ≤ b.length ∧ (bi.batchsize > 0 → (b.length : Int) ≤ bi.batchsize) ∧
        b.flatten.length = b.length * bi.columns.length ∧
        ∀ m, maxParams bi.dialect = some m → b.flatten.length ≤ m) := by
  have hs := size_pos bi hf
  have hsz : bi.batchsize > 0 → bi.size ≤ bi.batchsize := by
    intro hb
    unfold size
    dsimp only
    have h0 : ¬ bi.batchsize ≤ 0 := by omega
    simp only [h0, if_false]
    generalize paramLimit bi.dialect / bi.columns.length = q
    grind
  unfold exec
  split
  · exact ⟨[], by simp, by simp, rfl, by simp⟩
  split
  · exact ⟨[], by simp, by simp, rfl, by simp⟩
  split
  · dsimp only
    refine ⟨[], by simp, ?_, ?_, by simp⟩
    · generalize (execute ok 0 _).2 = v
      intro h; cases v <;> simp at h
    · simp only [List.map_nil]
      have hp := inserts_prefix (execute_prefix ok 0
        ((if bi.identities ≠ [] ∧ bi.dialect = .sqlserver then [.identityOn] else []) ++ [.prepareInsert] ++
         (if bi.updates then [Call.prepareUpdate (α := α)] else []))).1
      rw [inserts_other (_ ++ _ ++ _)] at hp
      · exact List.prefix_nil.1 hp
      · intro c hc
        simp only [List.mem_append] at hc
        rcases hc with (hc | hc) | hc
        · split at hc <;> simp at hc; subst hc; simp
        · simp at hc; subst hc; simp
        · split at hc <;> simp at hc; subst hc; simp
  · dsimp only
    obtain ⟨bs, h1, h2, h3, h4⟩ := loop_spec bi eof hs rows [] (by simp; omega)
    simp only [List.length_nil, List.flatten_nil, List.nil_append] at h1 h2 h3
    have hi : BatchSpec.inserts (bi.calls eof rows) = bs.map fun b => (b.length, b.flatten) := by
      rw [inserts_calls, h1, inserts_batches]
    obtain ⟨e1, e2⟩ := execute_prefix ok 0 (bi.calls eof rows)
    have hp := inserts_prefix e1
    rw [hi] at hp
    obtain ⟨bs', hb1, hb2⟩ := List.prefix_map_iff.1 hp
    refine ⟨bs', ?_, ?_, hb2, ?_⟩
    · obtain ⟨c, rfl⟩ := hb1
      rw [List.flatten_append] at h3
      exact (List.prefix_append _ _).trans h3
    · intro ho
      split at ho
      · rename_i hc
        simp at hc
        rw [e2 hc.1, hi] at hb2
        have : bs'.length = bs.length := by simpa using (congrArg List.length hb2).symm
        rw [List.IsPrefix.eq_of_length hb1 this]
        exact h2 hc.2
      · simp at ho
    · intro b hb
      have hbm := Full.mem (by omega) h4 b (hb1.subset hb)
      have hrow : ∀ r ∈ b, r.length = bi.columns.length := by
        intro r hr
        apply hw
        apply h3.subset
        exact List.mem_flatten.2 ⟨b, hb1.subset hb, hr⟩
      have hlen : b.flatten.length = b.length * bi.columns.length := by
        clear hbm hb
        induction b with
        | nil => simp
        | cons r b ih =>
          simp only [List.flatten_cons, List.length_append, List.length_cons]
          rw [ih (fun r hr => hrow r (by simp [hr])), hrow r (by simp), Nat.add_mul]
          omega
      refine ⟨hbm.1, fun hpos => ?_, hlen, fun m hm => ?_⟩
      · have := hsz hpos; omega
      · rw [hlen]; exact size_params bi hf m hm _ hbm.2

/-- C45 (SQL Server).  Where an UPDATE goes before each INSERT, it has the same arguments: the
arguments of the UPDATEs are those of the INSERTs, plus possibly those of a batch whose INSERT was
not reached or of which only the UPDATE was attempted. -/
theorem batchInsert_updates_rows (bi : BatchInsert) (ok : Nat → Bool) (eof : Bool) (rows : List (List α))
    (hf : Fits bi) (hok : (bi.exec ok eof rows).2 = .ok) :
    BatchSpec.updates (bi.exec ok eof rows).1 =
      if bi.updates then BatchSpec.inserts (bi.exec ok eof rows).1 else [] := by
  have hs := size_pos bi hf
  unfold exec at hok ⊢
  split at hok
  · simp at hok
  split at hok
  · simp at hok
  split at hok
  · dsimp only at hok
    generalize (execute ok 0 _).2 = v at hok
    cases v <;> simp at hok
  · rename_i c1 c2 c3
    rw [if_neg c1, if_neg c2, if_neg c3]
    dsimp only at hok ⊢
    obtain ⟨bs, h1, _⟩ := loop_spec bi eof hs rows [] (by simp; omega)
    simp only [List.length_nil, List.flatten_nil] at h1
    have h2 : (execute ok 0 (bi.calls eof rows)).2 = true := by
      split at hok
      · rename_i hc; simp at hc; exact hc.1
      · simp at hok
    rw [(execute_prefix ok 0 (bi.calls eof rows)).2 h2, updates_calls, inserts_calls, h1,
      updates_batches, inserts_batches]

/-! ## text of the statements -/

theorem join_cons (sep x : Str) (xs : List Str) (h : xs ≠ []) :
    Go.join sep (x :: xs) = x ++ sep ++ Go.join sep xs := by
  cases xs with
  | nil => exact absurd rfl h
  | cons y ys => rfl

theorem join_cons_flatMap (sep x : Str) (xs : List Str) :
    Go.join sep (x :: xs) = x ++ xs.flatMap (sep ++ ·) := by
  induction xs generalizing x with
  | nil => simp [Go.join]
  | cons y ys ih => rw [Go.join, ih]; simp

theorem writeFields_snd (d : Dialect) (first : Bool) (left n : Nat) :
    (writeFields d first left n).2 = n + left := by
  induction left generalizing first n with
  | zero => rfl
  | succ l ih => rw [writeFields]; simp [ih]; omega

theorem writeFields_false (d : Dialect) (left n : Nat) :
    (writeFields d false left n).1 =
      ((List.range left).map fun j => placeholder d (n + j + 1)).flatMap (b!", " ++ ·) := by
  induction left generalizing n with
  | zero => rfl
  | succ l ih =>
    rw [writeFields]
    simp only [ih, List.range_succ_eq_map, List.map_cons, List.flatMap_cons, List.map_map]
    simp [Function.comp_def, Nat.add_assoc, Nat.add_comm 1]

theorem writeFields_true (d : Dialect) (left n : Nat) :
    (writeFields d true left n).1 =
      Go.join b!", " ((List.range left).map fun j => placeholder d (n + j + 1)) := by
  cases left with
  | zero => rfl
  | succ l =>
    rw [writeFields]
    simp only [writeFields_false, List.range_succ_eq_map, List.map_cons, List.map_map]
    rw [join_cons_flatMap]
    simp [Function.comp_def, Nat.add_assoc, Nat.add_comm 1]

/-- text of one row -/
def rowText (d : Dialect) (cols n : Nat) : Str :=
  b!"(" ++ Go.join b!", " ((List.range cols).map fun j => placeholder d (n + j + 1)) ++ b!")"

theorem writeRows_false (d : Dialect) (cols left n : Nat) :
    writeRows d cols false left n =
      ((List.range left).map fun i => rowText d cols (n + i * cols)).flatMap (b!", " ++ ·) := by
  induction left generalizing n with
  | zero => rfl
  | succ l ih =>
    rw [writeRows]
    simp only [ih, writeFields_snd, writeFields_true, List.range_succ_eq_map, List.map_cons,
      List.flatMap_cons, List.map_map, Function.comp_def]
    simp [rowText, Nat.add_mul, Nat.add_assoc, Nat.add_comm cols, Nat.add_left_comm cols]

theorem writeRows_true (d : Dialect) (cols left n : Nat) :
    writeRows d cols true left n =
      Go.join b!", " ((List.range left).map fun i => rowText d cols (n + i * cols)) := by
  cases left with
  | zero => rfl
  | succ l =>
    rw [writeRows]
    simp only [writeRows_false, writeFields_snd, writeFields_true, List.range_succ_eq_map,
      List.map_cons, List.map_map, Function.comp_def]
    rw [join_cons_flatMap]
    simp [rowText, Nat.add_mul, Nat.add_assoc, Nat.add_comm cols, Nat.add_left_comm cols]

/-- C45.  The VALUES list has one parenthesised group per row and in it one placeholder per column;
numbered placeholders are numbered 1, 2, 3, ... through all rows. -/
theorem rowValues_eq (bi : BatchInsert) (rows : Nat) :
    bi.rowValues rows = valuesList bi.dialect rows bi.columns.length := by
  unfold rowValues valuesList
  rw [writeRows_true]
  congr 1
  apply List.map_congr_left
  intro i _
  simp only [rowText, Nat.zero_add, placeholder, itoa]
  cases bi.dialect <;> rfl

/-- C45.  What a statement of a batch looks like: only the VALUES list depends on the rows. -/
theorem batch_text (bi : BatchInsert) (n : Nat) (args : List α) :
    (Call.insert n args).text bi =
      bi.insertStart ++ valuesList bi.dialect n bi.columns.length ++ bi.insertEnd ∧
    (Call.update n args).text bi =
      bi.updateStart ++ valuesList bi.dialect n bi.columns.length ++ bi.updateEnd := by
  simp [Call.text, rowValues_eq]

/-! ## crashes and what is left behind -/

/-- C45: when `ExecContext` crashes.  Either there are more key columns than columns (a repeated key
column), or `Batchsize` is negative and all statements could be prepared. -/
theorem batchInsert_panics_iff (bi : BatchInsert) (eof : Bool) (rows : List (List α)) :
    (bi.exec (fun _ => true) eof rows).2 = .panic ↔
      bi.columns.length < bi.keys.length ∨ (bi.columns ≠ [] ∧ bi.batchsize < 0) := by
  have hex : ∀ n (cs : List (Call α)), (execute (fun _ => true) n cs).2 = true := by
    intro n cs
    induction cs generalizing n with
    | nil => rfl
    | cons c cs ih => simp [execute, ih]
  unfold exec
  split
  · simp [*]
  · split
    · simp_all
    · split
      · simp [hex, *]
      · rename_i h1 h2 h3
        simp only [h1, h2, h3, not_false_eq_true, and_false, or_false, iff_false, ne_eq]
        cases eof <;> simp [hex]

/-- C45 fails for a negative `Batchsize`, although the documentation promises the default of 500. -/
theorem batchInsert_negative_size_refuted :
    ((⟨-1, .sqlite, [], b!"t", [b!"a"], [], []⟩ : BatchInsert).exec (fun _ => true) true [[0], [1]]).2
      = .panic := by decide +kernel

/-- C45 fails for a repeated key column. -/
theorem batchInsert_repeated_key_refuted :
    ((⟨0, .sqlite, [], b!"t", [b!"a"], [b!"a", b!"a"], []⟩ : BatchInsert).exec (fun _ => true) true
      [[0], [1]]).2 = .panic := by decide +kernel

/-- C56 fails: after a failed INSERT the session keeps IDENTITY_INSERT switched on. -/
theorem batchInsert_identity_left_on_refuted :
    ∃ ok : Nat → Bool,
      ((⟨0, .sqlserver, [], b!"t", [b!"id"], [], [b!"id"]⟩ : BatchInsert).exec ok true [[0]]) =
        ([.identityOn, .prepareInsert, .insert 1 [0]], .error) :=
  ⟨fun n => n ≠ 2, by decide +kernel⟩

/-- C56.  A batch insert that succeeds on SQL Server switches IDENTITY_INSERT on at its start and off
at its end, exactly if there are identity columns among the columns. -/
theorem batchInsert_identity_partial (bi : BatchInsert) (ok : Nat → Bool) (eof : Bool)
    (rows : List (List α)) (hd : bi.dialect = .sqlserver) (hok : (bi.exec ok eof rows).2 = .ok)
    (hne : ∃ c ∈ bi.identityColumns, c ∈ bi.columns) :
    ∃ cs, (bi.exec ok eof rows).1 = .identityOn :: (cs ++ [.identityOff]) ∧
      .identityOn ∉ cs ∧ .identityOff ∉ cs := by
  have hid : bi.identities ≠ [] := by
    obtain ⟨c, h1, h2⟩ := hne
    apply List.ne_nil_of_mem (a := c)
    simp [identities, h1, h2]
  unfold exec at hok ⊢
  split at hok
  · simp at hok
  split at hok
  · simp at hok
  split at hok
  · dsimp only at hok
    generalize (execute ok 0 _).2 = v at hok
    cases v <;> simp at hok
  · rename_i c1 c2 c3
    rw [if_neg c1, if_neg c2, if_neg c3]
    dsimp only at hok ⊢
    have h2 : (execute ok 0 (bi.calls eof rows)).2 = true ∧ eof = true := by
      split at hok
      · rename_i hc; simpa using hc
      · simp at hok
    rw [(execute_prefix ok 0 (bi.calls eof rows)).2 h2.1]
    have hloop : ∀ (cnt : Nat) (args : List α) (rs : List (List α)),
        Call.identityOn ∉ bi.loop eof cnt args rs ∧ Call.identityOff ∉ bi.loop eof cnt args rs := by
      have hb : ∀ n (a : List α), Call.identityOn ∉ bi.batchCalls n a ∧ Call.identityOff ∉ bi.batchCalls n a := by
        intro n a; unfold batchCalls; split <;> simp
      intro cnt args rs
      induction rs generalizing cnt args with
      | nil => rw [loop]; split <;> simp [hb]
      | cons r rs ih =>
        rw [loop]
        split
        · simp [hb, ih]
        · exact ih _ _
    refine ⟨.prepareInsert :: ((if bi.updates then [.prepareUpdate] else []) ++ bi.loop eof 0 [] rows), ?_, ?_, ?_⟩
    · simp [calls, hid, hd, h2.2]
    · have := (hloop 0 [] rows).1
      split <;> simp [this]
    · have := (hloop 0 [] rows).2
      split <;> simp [this]

-- 53 rows on SQL Server: two full batches of 25 and one of 3, each an UPDATE and an INSERT
example :
    let bi : BatchInsert := ⟨0, .sqlserver, [], b!"t", [b!"id", b!"v"], [b!"id"], []⟩
    let x := bi.exec (fun _ => true) true ((List.range 53).map fun i => [i, i * i])
    x.2 = .ok ∧ (BatchSpec.inserts x.1).map (·.1) = [25, 25, 3] ∧
      BatchSpec.updates x.1 = BatchSpec.inserts x.1 := by decide +kernel

example : Fits ⟨0, .sqlserver, [], b!"t", [b!"id", b!"v"], [b!"id"], []⟩ := by
  refine ⟨by simp, ?_⟩
  intro m hm; simp [maxParams] at hm; subst hm; decide

example : (⟨0, .postgres, [], b!"t", [b!"id", b!"v"], [b!"id"], []⟩ : BatchInsert).rowValues 2 =
    b!"($1, $2), ($3, $4)" := by decide +kernel

/-! ## C46 -/

section upsert
variable {K C V : Type} [DecidableEq K] [DecidableEq C]

theorem upsertAll_append (cols : List C) (t : Table K C V) (a b : List (K × (C → V))) :
    upsertAll cols t (a ++ b) = upsertAll cols (upsertAll cols t a) b := by
  simp [upsertAll]

theorem upsertAll_other (cols : List C) (t : Table K C V) (rows : List (K × (C → V))) (k : K)
    (h : k ∉ rows.map (·.1)) : upsertAll cols t rows k = t k := by
  induction rows generalizing t with
  | nil => rfl
  | cons r rows ih =>
    simp at h
    have : upsertAll cols t (r :: rows) = upsertAll cols (upsert cols t r.1 r.2) rows := rfl
    rw [this, ih]
    · simp [upsert, h.1]
    · simpa using h.2

/-- value at one key, for distinct keys -/
theorem upsertAll_at (cols : List C) (t : Table K C V) (rows : List (K × (C → V)))
    (hn : (rows.map (·.1)).Nodup) (k : K) :
    upsertAll cols t rows k =
      match rows.find? (·.1 = k) with
      | none => t k
      | some r => match t k with
        | none => some r.2
        | some old => some fun c => if c ∈ cols then r.2 c else old c := by
  induction rows generalizing t with
  | nil => rfl
  | cons r rows ih =>
    simp at hn
    have e : upsertAll cols t (r :: rows) = upsertAll cols (upsert cols t r.1 r.2) rows := rfl
    rw [e]
    by_cases hk : r.1 = k
    · rw [List.find?_cons_of_pos (by simp [hk])]
      rw [upsertAll_other]
      · subst hk
        simp only [upsert, if_true]
        cases t r.1 <;> rfl
      · rw [← hk]; simpa using hn.1
    · rw [List.find?_cons_of_neg (by simp [hk]), ih _ (by simpa using hn.2)]
      have : upsert cols t r.1 r.2 k = t k := by simp [upsert, Ne.symm hk]
      rw [this]

/-- C46 for one batch: with distinct keys, a batch has the effect of upserting its rows one after the
other, on every database. -/
theorem upsertBatch_eq (d : Dialect) (cols : List C) (t : Table K C V) (rows : List (K × (C → V)))
    (hn : (rows.map (·.1)).Nodup) : sqlUpsertBatch d cols t rows = some (upsertAll cols t rows) := by
  unfold sqlUpsertBatch
  split
  · rw [if_pos hn]
  · unfold sqlInsertMissing
    dsimp only
    have hsub : ((rows.filter fun r => (sqlUpdate cols t rows r.1).isNone).map (·.1)).Nodup :=
      hn.sublist (List.filter_sublist.map _)
    rw [if_pos hsub]
    congr 1
    funext k
    have hiso : (fun r : K × (C → V) => (sqlUpdate cols t rows r.1).isNone) = fun r => (t r.1).isNone := by
      funext r; simp [sqlUpdate]
    rw [upsertAll_at cols t rows hn k, hiso]
    unfold sqlUpdate
    cases ht : t k with
    | some old =>
      simp only [Option.map_some]
      cases rows.find? (·.1 = k) <;> rfl
    | none =>
      simp only [Option.map_none]
      have hfind : ∀ l : List (K × (C → V)),
          (l.filter fun r => (t r.1).isNone).find? (·.1 = k) = l.find? (·.1 = k) := by
        intro l
        induction l with
        | nil => rfl
        | cons r l ih =>
          by_cases hk : r.1 = k
          · rw [List.filter_cons_of_pos (by simp [hk, ht])]
            rw [List.find?_cons_of_pos (by simp [hk]), List.find?_cons_of_pos (by simp [hk])]
          · rw [List.find?_cons_of_neg (by simp [hk]), List.filter_cons]
            split
            · rw [List.find?_cons_of_neg (by simp [hk])]; exact ih
            · exact ih
      rw [hfind rows]
      cases rows.find? (·.1 = k) <;> rfl
  · rfl

/-- Batches one after the other, stopping at an error. -/
def applyBatches (d : Dialect) (cols : List C) : Table K C V → List (List (K × (C → V))) → Option (Table K C V)
  | t, [] => some t
  | t, b :: bs => match sqlUpsertBatch d cols t b with
    | none => none
    | some t => applyBatches d cols t bs

/-- C46.  However the rows are divided into batches: if no key occurs twice in one batch, the result
is that of upserting all rows one after the other. -/
theorem upsertBatches_eq (d : Dialect) (cols : List C) (t : Table K C V)
    (bs : List (List (K × (C → V)))) (hn : ∀ b ∈ bs, (b.map (·.1)).Nodup) :
    applyBatches d cols t bs = some (upsertAll cols t bs.flatten) := by
  induction bs generalizing t with
  | nil => rfl
  | cons b bs ih =>
    rw [applyBatches, upsertBatch_eq d cols t b (hn b (by simp))]
    dsimp only
    rw [ih _ (fun b hb => hn b (by simp [hb])), List.flatten_cons, upsertAll_append]

/-- The rule does not extend to a key that occurs twice in one batch: Postgres and SQL Server reject
the statement. -/
theorem upsertBatch_repeated_refuted :
    (sqlUpsertBatch .postgres [0] (fun _ : Nat => none) [(1, fun _ : Nat => 5), (1, fun _ => 6)]).isNone ∧
    (sqlUpsertBatch .sqlserver [0] (fun _ : Nat => none) [(1, fun _ : Nat => 5), (1, fun _ => 6)]).isNone := by
  decide +kernel

example : ((applyBatches .sqlserver [1] (fun k : Nat => if k = 1 then some fun _ : Nat => 7 else none)
      [[(1, fun _ => 8), (2, fun _ => 9)], [(2, fun _ => 10)]]).map fun t =>
        ((t 1).map (· 0), (t 1).map (· 1), (t 2).map (· 0), (t 2).map (· 1))) =
    some (some 7, some 8, some 9, some 10) := by decide +kernel

end upsert

/-! ## C46: the statements that are sent are upserts -/

/-- The key columns are used if all of them are inserted, and only then. -/
theorem keys_spec (bi : BatchInsert) :
    (∀ k ∈ bi.keys, k ∈ bi.columns) ∧
    ((∀ k ∈ bi.keyColumns, k ∈ bi.columns) → bi.keys = bi.keyColumns) ∧
    (¬ (∀ k ∈ bi.keyColumns, k ∈ bi.columns) → bi.keys = []) := by
  unfold keys
  split <;> rename_i h <;> simp at h <;> grind

example : BatchInsert.keys ⟨0, .sqlite, [], b!"t", [b!"a", b!"b"], [b!"a"], []⟩ = [b!"a"] ∧
    BatchInsert.keys ⟨0, .sqlite, [], b!"t", [b!"a", b!"b"], [b!"a", b!"c"], []⟩ = [] := by decide

theorem mem_nonKeys (bi : BatchInsert) (c : Str) : c ∈ bi.nonKeys ↔ c ∈ bi.columns ∧ c ∉ bi.keys := by
  simp [nonKeys]

theorem applySets_new {V : Type} (cols : List Str) (new old : Str → V) :
    applySets (cols.map fun c => (c, .new c)) new old = fun c => if c ∈ cols then new c else old c := by
  funext c
  unfold applySets
  induction cols with
  | nil => rfl
  | cons x cols ih =>
    rw [List.map_cons, List.find?_cons]
    by_cases h : x = c
    · subst h; simp
    · have h' : ¬ c = x := fun e => h e.symm
      simp only [h, decide_false, List.mem_cons, h', false_or]
      exact ih

/-- C46.  On SQLite, Postgres and MySQL the INSERT statement of a batch with key columns says: insert
the row, or if a row with the same key columns exists replace its other columns. -/
theorem upsert_text (bi : BatchInsert) (hd : bi.dialect = .sqlite ∨ bi.dialect = .postgres ∨ bi.dialect = .mysql)
    (hk : bi.keys ≠ []) (n : Nat) (args : List α) :
    ∃ (u : Upsert) (verb : Str),
      (Call.insert n args).text bi =
        b!"INSERT INTO " ++ bi.tableName ++ b!" (" ++ Go.join b!", " (bi.columns.map (quoteIdentifier bi.dialect)) ++
        b!")" ++ verb ++ valuesList bi.dialect n bi.columns.length ++ u.clause bi.dialect (quoteIdentifier bi.dialect) ∧
      (verb = b!" VALUES " ∨ verb = b!" OVERRIDING SYSTEM VALUE VALUES ") ∧
      ∀ (V : Type) [DecidableEq V] (t : Table (List V) Str V) (row : Str → V),
        u.eval t row = upsert (bi.columns.filter (· ∉ bi.keys)) t (bi.keys.map row) row := by
  have hnk : bi.nonKeys = bi.columns.filter (· ∉ bi.keys) := by
    unfold nonKeys
    apply List.filter_congr
    intro c _; simp
  have hs : bi.dialect ≠ .sqlserver := by rcases hd with h | h | h <;> simp [h]
  have key : ∀ sets : List (Str × SetVal),
      (∀ (V : Type) (new old : Str → V), applySets sets new old = fun c => if c ∈ bi.nonKeys then new c else old c) →
      ∀ (V : Type) [DecidableEq V] (t : Table (List V) Str V) (row : Str → V),
        (⟨bi.keys, sets⟩ : Upsert).eval t row = upsert (bi.columns.filter (· ∉ bi.keys)) t (bi.keys.map row) row := by
    intro sets h V _ t row
    funext k
    unfold Upsert.eval upsert
    dsimp only
    by_cases e : k = bi.keys.map row
    · rw [if_pos e, if_pos e, e]
      cases t (bi.keys.map row) with
      | none => rfl
      | some old =>
        simp only
        rw [h V row old, hnk]
        exact congrArg some (funext fun c => by congr)
    · rw [if_neg e, if_neg e]
  have verb : ∃ verb, (verb = b!" VALUES " ∨ verb = b!" OVERRIDING SYSTEM VALUE VALUES ") ∧
      bi.insertStart = b!"INSERT INTO " ++ bi.tableName ++ b!" (" ++
        Go.join b!", " (bi.columns.map (quoteIdentifier bi.dialect)) ++ b!")" ++ verb := by
    unfold insertStart columnNames
    by_cases h1 : bi.identities ≠ [] ∧ bi.dialect = .postgres
    · exact ⟨_, .inr rfl, by rw [if_pos h1]⟩
    · exact ⟨_, .inl rfl, by rw [if_neg h1, if_neg (by simp [hs])]⟩
  obtain ⟨verb, hv, hstart⟩ := verb
  have hnew : ∀ (V : Type) (new old : Str → V),
      applySets (bi.nonKeys.map fun c => (c, .new c)) new old = fun c => if c ∈ bi.nonKeys then new c else old c :=
    fun V new old => applySets_new _ _ _
  cases hks : bi.keys with
  | nil => exact absurd hks hk
  | cons k ks =>
    by_cases hm : bi.dialect = .mysql
    · by_cases hne : bi.nonKeys = []
      · refine ⟨⟨bi.keys, [(k, .old k)]⟩, verb, ?_, hv, ?_⟩
        · rw [Call.text, hstart, rowValues_eq]
          congr 1
          rw [insertEnd, hks, hm]
          simp [hne, Upsert.clause, Go.join]
        · rw [← hks]
          apply key
          intro V new old
          funext c
          rw [hne]
          unfold applySets
          rw [List.find?_cons]
          by_cases e : k = c
          · subst e; simp
          · simp [e]
      · refine ⟨⟨bi.keys, bi.nonKeys.map fun c => (c, .new c)⟩, verb, ?_, hv, by rw [← hks]; exact key _ hnew⟩
        rw [Call.text, hstart, rowValues_eq]
        congr 1
        rw [insertEnd, hks, hm]
        simp [hne, Upsert.clause, Function.comp_def]
    · refine ⟨⟨bi.keys, bi.nonKeys.map fun c => (c, .new c)⟩, verb, ?_, hv, by rw [← hks]; exact key _ hnew⟩
      rw [Call.text, hstart, rowValues_eq]
      congr 1
      have hd2 : bi.dialect = .sqlite ∨ bi.dialect = .postgres := by grind
      rcases hd2 with h | h <;>
      · rw [insertEnd, hks, h]
        by_cases hne : bi.nonKeys = []
        · simp [hne, Upsert.clause]
        · simp [hne, Upsert.clause, Function.comp_def]

/-- C46.  On SQL Server a batch with key columns is an UPDATE of the existing rows, of all columns
that are neither key nor identity columns, followed by an INSERT of the missing rows. -/
theorem updateInsert_text (bi : BatchInsert) (hd : bi.dialect = .sqlserver) (hk : bi.keys ≠ []) (n : Nat)
    (args : List α) :
    ∃ u : UpdateInsert, u.table = bi.tableName ∧ u.columns = bi.columns ∧ u.keys = bi.keys ∧
      u.sets = (bi.columns.filter fun c => c ∉ bi.keys ∧ c ∉ bi.identities).map (fun c => (c, c)) ∧
      (Call.update n args).text bi =
        u.update (quoteIdentifier .sqlserver) (valuesList .sqlserver n bi.columns.length) ∧
      (Call.insert n args).text bi =
        u.insert (quoteIdentifier .sqlserver) (valuesList .sqlserver n bi.columns.length) := by
  refine ⟨⟨bi.tableName, bi.columns, bi.keys, bi.updateColumns.map fun c => (c, c)⟩, rfl, rfl, rfl, ?_, ?_, ?_⟩
  · dsimp only
    congr 1
    unfold updateColumns
    apply List.filter_congr
    intro c _; simp
  · rw [Call.text, rowValues_eq, hd]
    simp [updateStart, updateEnd, UpdateInsert.update, UpdateInsert.cond, keysMatch, columnNames, hd,
      Function.comp_def]
  · rw [Call.text, rowValues_eq, hd]
    cases hks : bi.keys with
    | nil => exact absurd hks hk
    | cons k ks =>
      simp [insertStart, insertEnd, UpdateInsert.insert, UpdateInsert.cond, keysMatch, columnNames, hd, hks]

example : (Call.insert 1 [0, 1]).text ⟨0, .postgres, [], b!"t", [b!"a", b!"b"], [b!"a"], []⟩ =
      b!"INSERT INTO t (a, b) VALUES ($1, $2) ON CONFLICT (a) DO UPDATE SET b = EXCLUDED.b" ∧
    (Call.insert 1 [0, 1]).text ⟨0, .mysql, [], b!"t", [b!"a", b!"b"], [b!"a"], []⟩ =
      b!"INSERT INTO t (a, b) VALUES (?, ?) ON DUPLICATE KEY UPDATE b = VALUES(b)" := by decide +kernel

end Sqddl.BatchInsert
