import Verif.Lemmas.InsertRun

/-!
# C103: the statements of a batch insert do what was asked

The texts that a batch insert sends are read as SQL and run on a table.
-/

namespace Sqddl.BatchInsert
open SqlSpec InsertSpec Sqddl
open SubsetSpec (Row)
open BatchSpec (upsertAll)

/-- The statements with rows among the calls of a batch insert, each with its parameters. -/
def sent (bi : BatchInsert) (cs : List (Call (Option Str))) : List (Str × List (Option Str)) :=
  cs.filterMap fun c => match c with
    | .update _ args | .insert _ args => some (c.text bi, args)
    | _ => none

/-- The columns whose values are replaced in a row that is there: those that are not in the key, and in SQL
Server are not identity columns. -/
def replaced (bi : BatchInsert) : List Str := bi.columns.filter fun c =>
  !bi.keyColumns.contains c && !(decide (bi.dialect = .sqlserver) && bi.identityColumns.contains c)

/-- The names are those of SQL, and the rows have a value for every column. -/
structure Writable (bi : BatchInsert) (tg : Target) (rows : List (List (Option Str))) : Prop where
  schema : bi.schema ≠ [] → PlainName bi.dialect bi.schema
  table : PlainName bi.dialect bi.table
  columns : ∀ c ∈ bi.columns, PlainName bi.dialect c
  nodup : bi.columns.Nodup
  fits : Fits bi
  name : tg.name = (if bi.schema ≠ [] then some bi.schema else none, bi.table)
  rows : ∀ vs ∈ rows, vs.length = bi.columns.length

/-- What an upsert needs: the key of the table is among the columns, and the database can tell the keys
apart. -/
structure Upserts (same eqv : Str → Str → Bool) (bi : BatchInsert) (tg : Target) (rows : List (List (Option Str)))
    (t : List Row) : Prop where
  dialect : bi.dialect = .sqlite ∨ bi.dialect = .postgres ∨ bi.dialect = .mysql ∨ bi.dialect = .sqlserver
  keys : bi.keyColumns ≠ []
  sub : ∀ c ∈ bi.keyColumns, c ∈ bi.columns
  key : tg.key = bi.keyColumns
  sees : Sees eqv bi.keyColumns (t ++ rows.map (rowOf tg.default bi.columns))
  once : bi.dialect = .postgres ∨ bi.dialect = .sqlserver → Keyed bi.keyColumns (rows.map (rowOf tg.default bi.columns))
  apart : bi.dialect = .sqlserver → Apart same bi.table
  identity : bi.dialect = .sqlserver → (∃ c ∈ bi.columns, c ∉ bi.keyColumns) →
    ∃ c ∈ bi.columns, c ∉ bi.keyColumns ∧ c ∉ bi.identityColumns

theorem namesOk (bi : BatchInsert) {tg : Target} {rows : List (List (Option Str))} (h : Writable bi tg rows) :
    NamesOk bi :=
  ⟨h.schema, h.table, h.fits.1, h.columns, fun c hc => h.columns c ((keys_spec bi).1 c hc)⟩

theorem runTexts_append (same eqv : Str → Str → Bool) (d : Dialect) (kw : List Str) (tg : Target)
    (a b : List (Str × List (Option Str))) (t : List Row) :
    runTexts same eqv d kw tg (a ++ b) t = (runTexts same eqv d kw tg a t).bind (runTexts same eqv d kw tg b) := by
  induction a generalizing t with
  | nil => rfl
  | cons x a ih =>
    obtain ⟨text, args⟩ := x
    rw [List.cons_append, runTexts, runTexts]
    cases stmtOf d kw text with
    | none => rfl
    | some s =>
      rw [Option.bind_some, Option.bind_some]
      cases s.run same eqv d tg args t with
      | none => rfl
      | some t' => rw [Option.bind_some, Option.bind_some, ih]

/-- One statement. -/
theorem runTexts_one {same eqv : Str → Str → Bool} {d : Dialect} {kw : List Str} {tg : Target} {text : Str} {s : Stmt}
    (h : stmtOf d kw text = some s) (args : List (Option Str)) (t : List Row) :
    runTexts same eqv d kw tg [(text, args)] t = s.run same eqv d tg args t := by
  rw [runTexts, h, Option.bind_some]
  cases s.run same eqv d tg args t <;> rfl

theorem replaced_nonKeys (bi : BatchInsert) (hs : bi.keys = bi.keyColumns) (hd : bi.dialect ≠ .sqlserver) :
    bi.replaced = bi.nonKeys := by
  unfold replaced nonKeys
  rw [hs]
  exact List.filter_congr fun c _ => by simp [hd]

theorem replaced_updateColumns (bi : BatchInsert) (hs : bi.keys = bi.keyColumns) (hd : bi.dialect = .sqlserver) :
    bi.replaced = bi.updateColumns := by
  unfold replaced updateColumns identities
  rw [hs]
  refine List.filter_congr fun c hc => ?_
  rw [Bool.eq_iff_iff]
  simp [hd, hc]

theorem sent_batch (bi : BatchInsert) (n : Nat) (args : List (Option Str)) :
    bi.sent (bi.batchCalls n args) =
      (if bi.updates then [(bi.updateStart ++ bi.rowValues n ++ bi.updateEnd, args)] else []) ++
        [(bi.insertStart ++ bi.rowValues n ++ bi.insertEnd, args)] := by
  unfold sent batchCalls
  cases bi.updates <;> rfl

/-- One batch: the rows of the table are those that were there, with new values where the key was in the
batch, and the rows whose key was not there. -/
theorem batch_upserts (same eqv : Str → Str → Bool) (bi : BatchInsert) (tg : Target) (all t : List Row)
    (vss : List (List (Option Str))) (hv : vss ≠ []) (hw : Writable bi tg vss) (hu : Upserts same eqv bi tg vss [])
    (hs : Sees eqv bi.keyColumns all) (hall : ∀ r ∈ vss.map (rowOf tg.default bi.columns), r ∈ all)
    (ht : Among bi.keyColumns all t) (hk : Keyed bi.keyColumns t) :
    ∃ t', runTexts same eqv bi.dialect (keywords bi.dialect) tg (bi.sent (bi.batchCalls vss.length vss.flatten)) t =
        some t' ∧ Keyed bi.keyColumns t' ∧ Among bi.keyColumns all t' ∧
      byKey bi.keyColumns t' = upsertAll bi.replaced (byKey bi.keyColumns t)
        (keyedRows bi.keyColumns (vss.map (rowOf tg.default bi.columns))) := by
  have hkey : bi.keys = bi.keyColumns := (keys_spec bi).2.1 hu.sub
  have hne : bi.keys ≠ [] := hkey ▸ hu.keys
  have hok := namesOk bi hw
  have hn : vss.length ≠ 0 := by simpa using hv
  have hname : tg.name = nameOf bi := hw.name
  have htk : tg.key = bi.keys := hu.key.trans hkey.symm
  have honce := hu.once
  rw [← hkey] at hs ht hk honce ⊢
  rw [sent_batch]
  by_cases hd : bi.dialect = .sqlserver
  · have hap := hu.apart hd
    have hnk := honce (.inr hd)
    have hrep := replaced_updateColumns bi hkey hd
    have hsub : ∀ c ∈ bi.keys, c ∈ bi.columns := (keys_spec bi).1
    have hd1 : ((keyedRows bi.keys (vss.map (rowOf tg.default bi.columns))).map (·.1)).Nodup := by
      unfold keyedRows
      rw [List.map_map]
      exact hnk
    have hbatch := upsertBatch_eq .sqlserver bi.updateColumns (byKey bi.keys t)
      (keyedRows bi.keys (vss.map (rowOf tg.default bi.columns))) hd1
    have hup : ∃ t1, runTexts same eqv bi.dialect (keywords bi.dialect) tg
        (if bi.updates then [(bi.updateStart ++ bi.rowValues vss.length ++ bi.updateEnd, vss.flatten)] else []) t =
          some t1 ∧ Keyed bi.keys t1 ∧ Among bi.keys all t1 ∧ byKey bi.keys t1 = BatchSpec.sqlUpdate bi.updateColumns
            (byKey bi.keys t) (keyedRows bi.keys (vss.map (rowOf tg.default bi.columns))) := by
      by_cases hupd : bi.updates = true
      · rw [if_pos hupd]
        have hcol : bi.updateColumns ≠ [] := by
          have h1 : bi.nonKeys ≠ [] := by
            unfold updates at hupd
            simp at hupd
            exact hupd.1.2
          obtain ⟨c, hc⟩ := List.exists_mem_of_ne_nil _ h1
          have hc := (mem_nonKeys bi c).1 hc
          obtain ⟨c, c1, c2, c3⟩ := hu.identity hd ⟨c, hc.1, hkey ▸ hc.2⟩
          rw [← hrep]
          refine List.ne_nil_of_mem (a := c) (List.mem_filter.2 ⟨c1, ?_⟩)
          simp [c2, c3]
        rw [runTexts_one (update_stmt bi hd hok hne hcol vss.length hn)]
        exact updateOf_run eqv bi hap tg hname htk hne hw.nodup hsub vss hw.rows all t hs hall ht hk
      · rw [if_neg hupd]
        refine ⟨t, rfl, hk, ht, ?_⟩
        have h1 : bi.nonKeys = [] := by
          unfold updates at hupd
          simp [hne, hd] at hupd
          exact hupd
        have h2 : bi.updateColumns = [] := by
          rw [List.eq_nil_iff_forall_not_mem]
          intro c hc
          have := (mem_nonKeys bi c).2 (mem_updateColumns bi c hc)
          rw [h1] at this
          cases this
        rw [h2]
        funext k
        unfold BatchSpec.sqlUpdate
        cases byKey bi.keys t k with
        | none => rfl
        | some r =>
          rw [Option.map_some]
          cases (keyedRows bi.keys (vss.map (rowOf tg.default bi.columns))).find? fun x => decide (x.1 = k) with
          | none => rfl
          | some x => simp
    obtain ⟨t1, e1, k1, a1, b1⟩ := hup
    obtain ⟨t2, e2, k2, a2, b2⟩ := missingOf_run eqv bi hap tg hname htk hne hw.nodup hsub vss hw.rows all t1 hs hall a1 k1 hd1
    refine ⟨t2, ?_, k2, a2, ?_⟩
    · rw [runTexts_append, e1, Option.bind_some, runTexts_one (missing_stmt bi hd hok hne vss.length hn)]
      exact e2
    · rw [b1] at b2
      unfold BatchSpec.sqlUpsertBatch at hbatch
      dsimp only at hbatch
      rw [hbatch] at b2
      rw [hrep]
      exact Option.some.inj b2
  · have hd' : bi.dialect = .sqlite ∨ bi.dialect = .postgres ∨ bi.dialect = .mysql := by
      rcases hu.dialect with h | h | h | h
      · exact .inl h
      · exact .inr (.inl h)
      · exact .inr (.inr h)
      · exact absurd h hd
    have hupd : bi.updates = false := by simp [updates, hd]
    have hnot : ∀ c ∈ bi.keys, c ∉ bi.nonKeys := fun c hc h => ((mem_nonKeys bi c).1 h).2 hc
    have hrun : (actionOf bi).once eqv bi.dialect tg.key (vss.map (rowOf tg.default bi.columns)) = true := by
      unfold Action.once
      split
      · by_cases hp : bi.dialect = .postgres
        · have hpw := List.pairwise_map.1 (honce (.inl hp))
          have : (vss.map (rowOf tg.default bi.columns)).Pairwise fun a b => clash eqv tg.key a b = false := by
            refine hpw.imp_of_mem ?_
            intro a b ha hb hne'
            rw [Bool.eq_false_iff, htk]
            exact fun h => hne' ((hs a (hall a ha) b (hall b hb)).1 h)
          simp [this]
        · simp [hp]
      · rfl
    rw [hupd]
    simp only [Bool.false_eq_true, if_false, List.nil_append]
    rw [runTexts_one (insert_stmt bi (.inr hd') hok vss.length hn), replaced_nonKeys bi hkey hd]
    show ∃ t', (insertOf bi vss.length).run eqv bi.dialect tg vss.flatten t = some t' ∧ _
    rw [insertOf_run eqv bi tg hname hw.nodup vss hw.rows (htk ▸ actionOf_fits bi) hrun t, htk]
    exact insertRows_eq eqv bi.keys bi.nonKeys hnot _ (actionOf_sets bi hd' hne) all _ t hs ht hall hk

theorem sent_append (bi : BatchInsert) (a b : List (Call (Option Str))) : bi.sent (a ++ b) = bi.sent a ++ bi.sent b := by
  simp [sent]

/-- The statements that a batch insert without failure sends. -/
theorem sent_exec (bi : BatchInsert) (hf : Fits bi) (ok : Nat → Bool) (eof : Bool) (rows : List (List (Option Str)))
    (h : (bi.exec ok eof rows).2 = .ok) :
    ∃ bs : List (List (List (Option Str))), bs.flatten = rows ∧ (∀ b ∈ bs, b ≠ []) ∧
      bi.sent (bi.exec ok eof rows).1 = bs.flatMap fun b => bi.sent (bi.batchCalls b.length b.flatten) := by
  have hs := size_pos bi hf
  obtain ⟨bs, h1, h2, -, h4⟩ := loop_spec bi eof hs rows [] (by simp; omega)
  simp only [List.length_nil, List.flatten_nil, List.nil_append] at h1 h2
  have hone : eof = true ∧ (bi.exec ok eof rows).1 = bi.calls eof rows := by
    unfold exec at h ⊢
    split at h
    · cases h
    · split at h
      · cases h
      · split at h
        · dsimp only at h
          revert h
          generalize (execute ok 0 _).2 = v
          intro h
          cases v <;> cases h
        · rename_i n1 n2 n3
          rw [if_neg n1, if_neg n2, if_neg n3]
          dsimp only at h ⊢
          split at h
          · rename_i hc
            simp at hc
            exact ⟨hc.2, (execute_prefix ok 0 (bi.calls eof rows)).2 hc.1⟩
          · cases h
  refine ⟨bs, h2 hone.1, fun b hb => ?_, ?_⟩
  · have := (Full.mem (by omega) h4 b hb).1
    intro e
    simp [e] at this
  · have hset : ∀ l : List Str, bi.sent (l.map Call.setval) = [] := by
      intro l
      induction l with
      | nil => rfl
      | cons x l ih => simp [sent]
    rw [hone.2]
    unfold calls
    simp only [sent_append]
    rw [h1]
    have p1 : bi.sent (if bi.identities ≠ [] ∧ bi.dialect = .sqlserver then [.identityOn] else []) = [] := by
      split <;> rfl
    have p2 : bi.sent [.prepareInsert] = [] := rfl
    have p3 : bi.sent (if bi.updates then [.prepareUpdate] else []) = [] := by split <;> rfl
    have p4 : bi.sent (if eof then (if bi.identities ≠ [] ∧ bi.dialect = .sqlserver then [.identityOff] else []) ++
        (if bi.dialect = .postgres then bi.identities.map .setval else []) else []) = [] := by
      split
      · rw [sent_append]
        have q1 : bi.sent (if bi.identities ≠ [] ∧ bi.dialect = .sqlserver then [.identityOff] else []) = [] := by
          split <;> rfl
        rw [q1]
        split
        · exact hset _
        · rfl
      · rfl
    rw [p1, p2, p3, p4]
    simp [sent, List.filterMap_flatMap]

theorem Upserts.part {same eqv : Str → Str → Bool} {bi : BatchInsert} {tg : Target} {rows b : List (List (Option Str))}
    {t : List Row} (h : Upserts same eqv bi tg rows t) (hb : b.Sublist rows) : Upserts same eqv bi tg b [] where
  dialect := h.dialect
  keys := h.keys
  sub := h.sub
  key := h.key
  sees := fun x hx y hy => h.sees x (by
    rcases List.mem_append.1 hx with hx | hx
    · cases hx
    · exact List.mem_append.2 (.inr ((hb.map _).subset hx))) y (by
    rcases List.mem_append.1 hy with hy | hy
    · cases hy
    · exact List.mem_append.2 (.inr ((hb.map _).subset hy)))
  once := fun hd => (h.once hd).sublist ((hb.map _).map _)
  apart := h.apart
  identity := h.identity

theorem Writable.part {bi : BatchInsert} {tg : Target} {rows b : List (List (Option Str))} (h : Writable bi tg rows)
    (hb : b.Sublist rows) : Writable bi tg b :=
  { h with rows := fun vs hvs => h.rows vs (hb.subset hvs) }

/-- C103.  A batch insert that reports success has upserted every row: the texts that it sent are
statements that the database does not refuse, and after them the table has, for every key, the row that
upserting all rows one after the other gives.  No two rows have the same key. -/
theorem batchInsert_upserts_partial (same eqv : Str → Str → Bool) (bi : BatchInsert) (tg : Target) (ok : Nat → Bool)
    (eof : Bool) (rows : List (List (Option Str))) (t : List Row) (hw : Writable bi tg rows)
    (hu : Upserts same eqv bi tg rows t) (hk : Keyed bi.keyColumns t) (hok : (bi.exec ok eof rows).2 = .ok) :
    ∃ t', runTexts same eqv bi.dialect (keywords bi.dialect) tg (bi.sent (bi.exec ok eof rows).1) t = some t' ∧
      Keyed bi.keyColumns t' ∧
      byKey bi.keyColumns t' = upsertAll bi.replaced (byKey bi.keyColumns t)
        (keyedRows bi.keyColumns (rows.map (rowOf tg.default bi.columns))) := by
  obtain ⟨bs, hflat, hne, hsent⟩ := sent_exec bi hw.fits ok eof rows hok
  rw [hsent]
  have key : ∀ (bs : List (List (List (Option Str)))) (t1 : List Row), (∀ b ∈ bs, b ≠ []) → bs.flatten.Sublist rows →
      Keyed bi.keyColumns t1 → Among bi.keyColumns (t ++ rows.map (rowOf tg.default bi.columns)) t1 →
      ∃ t', runTexts same eqv bi.dialect (keywords bi.dialect) tg
          (bs.flatMap fun b => bi.sent (bi.batchCalls b.length b.flatten)) t1 = some t' ∧ Keyed bi.keyColumns t' ∧
        byKey bi.keyColumns t' = upsertAll bi.replaced (byKey bi.keyColumns t1)
          (keyedRows bi.keyColumns (bs.flatten.map (rowOf tg.default bi.columns))) := by
    intro bs
    induction bs with
    | nil => intro t1 _ _ h _; exact ⟨t1, rfl, h, rfl⟩
    | cons b bs ih =>
      intro t1 hne hsub hk1 ha1
      rw [List.flatten_cons] at hsub
      have hb : b.Sublist rows := (List.sublist_append_left _ _).trans hsub
      obtain ⟨t2, e2, k2, a2, b2⟩ := batch_upserts same eqv bi tg _ t1 b (hne b (by simp)) (hw.part hb) (hu.part hb) hu.sees
        (fun r hr => List.mem_append.2 (.inr ((hb.map _).subset hr))) ha1 hk1
      obtain ⟨t3, e3, k3, b3⟩ := ih t2 (fun x hx => hne x (by simp [hx])) ((List.sublist_append_right _ _).trans hsub) k2 a2
      refine ⟨t3, ?_, k3, ?_⟩
      · rw [List.flatMap_cons, runTexts_append, e2, Option.bind_some, e3]
      · rw [b3, b2, ← upsertAll_append, List.flatten_cons, List.map_append]
        unfold keyedRows
        rw [List.map_append]
  obtain ⟨t', h1, h2, h3⟩ := key bs t hne (hflat ▸ List.Sublist.refl _) hk
    (Among.self _ fun x hx => List.mem_append.2 (.inl hx))
  rw [hflat] at h3
  exact ⟨t', h1, h2, h3⟩

theorem refused_or_appended (eqv : Str → Str → Bool) (key : List Str) (rows t t' : List Row)
    (h : rows.foldlM (insertRow eqv key .refuse) t = some t') :
    t' = t ++ rows ∧ (∀ r ∈ rows, ∀ x ∈ t, clash eqv key r x = false) ∧
      rows.Pairwise fun a b => clash eqv key b a = false := by
  induction rows generalizing t with
  | nil =>
    rw [List.foldlM_nil] at h
    cases h
    simp
  | cons r rows ih =>
    rw [List.foldlM_cons] at h
    unfold insertRow at h
    cases hf : t.findIdx? (clash eqv key r) with
    | some i => rw [hf] at h; cases h
    | none =>
      rw [hf] at h
      obtain ⟨e, h1, h2⟩ := ih (t ++ [r]) h
      have h0 := List.findIdx?_eq_none_iff.1 hf
      refine ⟨by simp [e], ?_, List.pairwise_cons.2 ⟨fun a ha => h1 a ha r (by simp), h2⟩⟩
      intro a ha x hx
      rcases List.mem_cons.1 ha with rfl | ha
      · exact h0 x hx
      · exact h1 a ha x (by simp [hx])

/-- C103.  Without a key among the columns every row is added, and rows that are there stay as they are;
a row with the key of another is refused. -/
theorem batchInsert_appends_partial (same eqv : Str → Str → Bool) (bi : BatchInsert) (tg : Target) (ok : Nat → Bool)
    (eof : Bool) (rows : List (List (Option Str))) (t : List Row) (hw : Writable bi tg rows)
    (hn : bi.keyColumns = [] ∨ ∃ c ∈ bi.keyColumns, c ∉ bi.columns) (hok : (bi.exec ok eof rows).2 = .ok) :
    let added := rows.map (rowOf tg.default bi.columns)
    let result := runTexts same eqv bi.dialect (keywords bi.dialect) tg (bi.sent (bi.exec ok eof rows).1) t
    ((∀ r ∈ added, ∀ x ∈ t, clash eqv tg.key r x = false) ∧ (added.Pairwise fun a b => clash eqv tg.key b a = false) →
      result = some (t ++ added)) ∧
    ∀ t', result = some t' → t' = t ++ added ∧ (∀ r ∈ added, ∀ x ∈ t, clash eqv tg.key r x = false) ∧
      added.Pairwise fun a b => clash eqv tg.key b a = false := by
  have hkey : bi.keys = [] := by
    rcases hn with h | ⟨c, h1, h2⟩
    · by_cases hs : ∀ k ∈ bi.keyColumns, k ∈ bi.columns
      · rw [(keys_spec bi).2.1 hs, h]
      · exact (keys_spec bi).2.2 hs
    · exact (keys_spec bi).2.2 fun hs => h2 (hs c h1)
  have hrun : runTexts same eqv bi.dialect (keywords bi.dialect) tg (bi.sent (bi.exec ok eof rows).1) t =
      (rows.map (rowOf tg.default bi.columns)).foldlM (insertRow eqv tg.key .refuse) t := by
    obtain ⟨bs, hflat, hne, hsent⟩ := sent_exec bi hw.fits ok eof rows hok
    rw [hsent]
    have key : ∀ (bs : List (List (List (Option Str)))) (t : List Row), (∀ b ∈ bs, b ≠ []) → bs.flatten.Sublist rows →
        runTexts same eqv bi.dialect (keywords bi.dialect) tg
          (bs.flatMap fun b => bi.sent (bi.batchCalls b.length b.flatten)) t =
          (bs.flatten.map (rowOf tg.default bi.columns)).foldlM (insertRow eqv tg.key .refuse) t := by
      intro bs
      induction bs with
      | nil => intro t _ _; rfl
      | cons b bs ih =>
        intro t hne hsub
        rw [List.flatten_cons] at hsub
        have hb : b.Sublist rows := (List.sublist_append_left _ _).trans hsub
        have hupd : bi.updates = false := by simp [updates, hkey]
        have hact : actionOf bi = .refuse := by simp [actionOf, hkey]
        rw [List.flatMap_cons, runTexts_append, sent_batch, hupd]
        simp only [Bool.false_eq_true, if_false, List.nil_append]
        rw [runTexts_one (insert_stmt bi (.inl hkey) (namesOk bi hw) b.length (by simpa using hne b (by simp)))]
        show ((insertOf bi b.length).run eqv bi.dialect tg b.flatten t).bind _ = _
        rw [insertOf_run eqv bi tg hw.name hw.nodup b (hw.part hb).rows (by rw [hact]; rfl) (by rw [hact]; rfl) t, hact,
          List.flatten_cons, List.map_append, List.foldlM_append]
        refine congrArg _ (funext fun t1 => ?_)
        exact ih t1 (fun x hx => hne x (by simp [hx])) ((List.sublist_append_right _ _).trans hsub)
    rw [key bs t hne (hflat ▸ List.Sublist.refl _), hflat]
  intro added result
  refine ⟨fun h => ?_, fun t' h => ?_⟩
  · show runTexts _ _ _ _ _ _ _ = _
    rw [hrun]
    exact appendRows_eq eqv tg.key added t h.1 h.2
  · exact refused_or_appended eqv tg.key added t t' (hrun ▸ h)

end Sqddl.BatchInsert
