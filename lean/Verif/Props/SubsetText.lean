import Verif.Lemmas.SubsetCalls

/-!
# The query that dumps a subset of a table: C102
-/

namespace SelectSpec
open Go SqlSpec DdlText Sqddl Sqddl.Subset SubsetSpec

/-! ## The text -/

/-- The results that the query of a table uses. -/
def resultsOf (L : List Answered) (t : TableID) : List (Nat × Result) :=
  (leading L t).map fun p => (p.2, ⟨p.1.1.pkey, p.1.1.records⟩)

/-- The joins that lead to a table. -/
def joinsOf (L : List Answered) (t : TableID) : List Join := (leading L t).flatMap fun p => p.1.2.joins.get t

/-- The joins, as steps. -/
def fromsOf (L : List Answered) (t : TableID) : List (TableID × List Step) :=
  (joinsOf L t).map fun j => (toSteps j).getD (t, [])

/-- A request as a call: number `n` has the name `query<n+1>_`. -/
def callOf (d : Dialect) (val : List Tok → Option Str) (p : Answered × Nat) : Call where
  num := p.2 + 1
  base := p.1.1.base.id
  pkey := p.1.1.pkey
  result := requested d val p.1.1.pkey p.1.1.records
  joins := p.1.2.joins.get

section
variable {d : Dialect} {same : Str → Str → Bool} {cat : Cat} (hs : Compares same) (hok : Cat.Ok cat)
  (hcl : Cat.Closed cat) (hn : Names d same cat) {L : List Answered} (hL : ∀ p ∈ L, RequestOk d cat p.1)
  (hD : Done cat 0 L) {t : TableID} (ht : Known cat t)
include hs hok hcl hn hL hD ht

omit hs hok hcl hn hL hD ht in
theorem leading_mem {p : Answered × Nat} : p ∈ leading L t ↔ p ∈ L.zipIdx ∧ t ∈ p.1.2.joins.keys := by
  unfold leading
  rw [List.mem_filter, decide_eq_true_eq]

omit hs hok hcl hn hL hD ht in
theorem zipIdx_mem {p : Answered × Nat} (h : p ∈ L.zipIdx) : p.1 ∈ L ∧ L[p.2]? = some p.1 := by
  have := List.mem_zipIdx_iff_getElem?.1 h
  exact ⟨List.mem_of_getElem? this, this⟩

omit ht in
theorem join_good {p : Answered × Nat} (hp : p ∈ L.zipIdx) {j : Join} (hj : j ∈ p.1.2.joins.get t) :
    ∃ ss, toSteps j = some (t, ss) ∧ Good d same cat (p.2 + 1) t ss :=
  good_join hs hok hcl hn (hL _ (zipIdx_mem hp).1) (hD p hp) hj

omit hs hcl hn ht in
theorem join_key {p : Answered × Nat} (hp : p ∈ L.zipIdx) {j : Join} (hj : j ∈ p.1.2.joins.get t) :
    p ∈ leading L t := by
  have hi := subsetOf_inv hok (hL _ (zipIdx_mem hp).1).base.mem (hD p hp)
  exact leading_mem.2 ⟨hp, hi.keys t j hj t (hi.chain t j hj).mem⟩

omit ht in
theorem join_steps {j : Join} (hj : j ∈ joinsOf L t) : toSteps j = some ((toSteps j).getD (t, [])) := by
  obtain ⟨p, hp, hj⟩ := List.mem_flatMap.1 hj
  obtain ⟨ss, h, _⟩ := join_good hs hok hcl hn hL hD (leading_mem.1 hp).1 hj
  rw [h]
  rfl

omit hs hcl hn ht in
theorem joins_ne (h : leading L t ≠ []) : joinsOf L t ≠ [] := by
  obtain ⟨p, hp⟩ := List.exists_mem_of_ne_nil _ h
  have hp' := leading_mem.1 hp
  have hi := subsetOf_inv hok (hL _ (zipIdx_mem hp'.1).1).base.mem (hD p hp'.1)
  obtain ⟨j, hj⟩ := List.exists_mem_of_ne_nil _ (hi.filled t hp'.2)
  intro e
  have : j ∈ joinsOf L t := List.mem_flatMap.2 ⟨p, hp, hj⟩
  rw [e] at this
  cases this

omit ht in
theorem query_text (pk cols : List Str) (hpk : pk ≠ []) (h : leading L t ≠ []) :
    (final L).query d t pk cols = some
      (b!"WITH " ++ join b!"," ((resultsOf L t).map fun r => SubsetQuery.resultText d r.1
          (join b!", " (r.2.columns.map (quoteIdentifier d))) r.2.records) ++
        b!",pkey_ (" ++ join b!", " (pk.map (quoteIdentifier d)) ++ b!") AS (" ++
        (b!"\n    " ++ join b!"\n    UNION\n    " ((fromsOf L t).map fun q => b!"SELECT DISTINCT " ++
          join b!", " (pk.map (columnText d t)) ++ b!"\n    FROM " ++ (tableText d q.1 ++ q.2.flatMap (stepText d)))) ++
        b!"\n)\nSELECT " ++ join b!"\n    ," (cols.map (columnText d t)) ++
        b!"\nFROM " ++ tableText d t ++ b!"\nJOIN pkey_ ON " ++
        join b!" AND " (pk.map fun c => b!"pkey_." ++ quoteIdentifier d c ++ b!" = " ++ columnText d t c) ++
        (b!"\nORDER BY " ++ join b!", " (pk.map (columnText d t))) ++ b!"\n;") := by
  have e1 : (final L).tableResults t ≠ [] := by simpa [final] using h
  have e2 : (final L).tableJoins t = joinsOf L t := rfl
  have e3 : (final L).resultsText d t = some (join b!"," ((resultsOf L t).map fun r => SubsetQuery.resultText d r.1
          (join b!", " (r.2.columns.map (quoteIdentifier d))) r.2.records)) := by
    unfold Subsetter.resultsText
    have : ((final L).tableResults t) = (leading L t).map (·.2) := rfl
    rw [this, mapM_map_some _ _ (fun p => SubsetQuery.resultText d p.2
      (join b!", " (p.1.1.pkey.map (quoteIdentifier d))) p.1.1.records)]
    · rw [Option.map_some, resultsOf, List.map_map]
      rfl
    · intro p hp
      have := (zipIdx_mem (leading_mem.1 hp).1).2
      simp only [final, List.getElem?_map, this, Option.map_some]
  have e4 : ∀ keys, unionText d keys (joinsOf L t) = some (b!"\n    " ++ join b!"\n    UNION\n    "
      ((fromsOf L t).map fun q => b!"SELECT DISTINCT " ++ keys ++ b!"\n    FROM " ++
        (tableText d q.1 ++ q.2.flatMap (stepText d)))) := by
    intro keys
    unfold unionText
    have := mapM_map_some (joinText d) id (fun j => tableText d ((toSteps j).getD (t, [])).1 ++
      ((toSteps j).getD (t, [])).2.flatMap (stepText d)) (joinsOf L t) (by
        intro j hj
        unfold joinText
        rw [id, join_steps hs hok hcl hn hL hD hj]
        rfl)
    rw [List.map_id] at this
    rw [this, Option.map_some, fromsOf, List.map_map, List.map_map]
    rfl
  unfold Subsetter.query
  rw [if_neg e1, e3, e2, if_neg (joins_ne hok hL hD h), if_neg hpk, e4]
  rfl

/-- The query of a table, as it is read. -/
def readAs (d : Dialect) (L : List Answered) (t : TableID) (pk cols : List Str) : Query :=
  theQuery d t pk cols (resultsOf L t) (fromsOf L t)

omit hs hok hcl hn hD ht in
theorem results_ok : ∀ p ∈ resultsOf L t, ∃ q, RequestOk d cat q ∧ p.2 = ⟨q.pkey, q.records⟩ := by
  intro p hp
  obtain ⟨x, hx, rfl⟩ := List.mem_map.1 hp
  exact ⟨x.1.1, hL _ (zipIdx_mem (leading_mem.1 hx).1).1, rfl⟩

omit ht in
theorem froms_ok : ∀ q ∈ fromsOf L t, ∃ p ∈ leading L t, ∃ j ∈ p.1.2.joins.get t, ∃ ss, q = (t, ss) ∧
    toSteps j = some (t, ss) ∧ Good d same cat (p.2 + 1) t ss := by
  intro q hq
  obtain ⟨j, hj, rfl⟩ := List.mem_map.1 hq
  obtain ⟨p, hp, hj⟩ := List.mem_flatMap.1 hj
  obtain ⟨ss, h, hg⟩ := join_good hs hok hcl hn hL hD (leading_mem.1 hp).1 hj
  exact ⟨p, hp, j, hj, ss, by rw [h]; rfl, h, hg⟩

omit hs hok hcl hL hD ht in
theorem name_ok {x : TableID} (h : Known cat x ∨ ∃ n, x = resultName n) : NameOk d (nm x) := by
  rcases h with ⟨u, hu, rfl⟩ | ⟨n, rfl⟩
  · have := hn.plain u hu
    refine ⟨?_, this.2⟩
    intro s hs
    unfold nm Render.tableName at hs
    by_cases e : u.id.1 = []
    · simp [e] at hs
    · simp [e] at hs
      exact hs ▸ this.1 e
  · refine ⟨?_, (result_fixed n).plain d⟩
    intro s hs
    simp [nm, Render.tableName, resultName] at hs

omit hs hok hcl hL hD ht in
theorem ref_ok {x : TableID} (h : Known cat x ∨ ∃ n, x = resultName n) {c : Str} (hc : PlainName d c) :
    RefOk d (ref x c) := ⟨name_ok hn h, hc⟩

omit hs in
theorem sel_ok (pk : List Str) (hpk : pk ≠ []) (hp : ∀ c ∈ pk, PlainName d c) {n : Nat} {ss : List Step}
    (hg : Good d same cat n t ss) : SelOk d (selOf t pk (t, ss)) := by
  refine ⟨by simpa [selOf] using hpk, ?_, name_ok hn (.inl ht), ?_⟩
  · intro r hr
    obtain ⟨c, hc, rfl⟩ := List.mem_map.1 hr
    exact ref_ok hn (.inl ht) (hp c hc)
  · intro j hj
    obtain ⟨s, hs', rfl⟩ := List.mem_map.1 hj
    have h1 := hg.tables s hs'
    have h2 := hg.on s hs'
    have hst : Known cat s.table ∨ ∃ n, s.table = resultName n := h1.1.imp_right fun h => ⟨n, h⟩
    refine ⟨name_ok hn hst, by simpa [joinOf] using h2.1, ?_⟩
    intro e he
    obtain ⟨p, hp', rfl⟩ := List.mem_map.1 he
    exact ⟨ref_ok hn hst (h2.2 p hp').1, ref_ok hn (.inl h1.2) (h2.2 p hp').2⟩

/-- The name of the keys, as that of a table. -/
def keyId : TableID := ([], b!"pkey_")

theorem readsQuery_ok (pk cols : List Str) (hpk : pk ≠ []) (hp : ∀ c ∈ pk, PlainName d c) (hc0 : cols ≠ [])
    (hc : ∀ c ∈ cols, PlainName d c) (h : leading L t ≠ []) : QueryOk d (readAs d L t pk cols) := by
  have hkey : NameOk d (none, b!"pkey_") := ⟨by simp, pkey_fixed.plain d⟩
  refine ⟨by simp [readAs, theQuery], ?_, ⟨?_, ?_, ?_, ?_⟩, ?_, ?_⟩
  · intro c hc
    simp only [readAs, theQuery, List.mem_append, List.mem_singleton] at hc
    rcases hc with hc | rfl
    · obtain ⟨p, hp, rfl⟩ := List.mem_map.1 hc
      obtain ⟨q, hq, e⟩ := results_ok hL p hp
      have e1 : p.2.columns = q.pkey := by rw [e]
      have e2 : p.2.records = q.records := by rw [e]
      refine ⟨result_fixed _, show p.2.columns ≠ [] from e1 ▸ hq.key,
        show ∀ x ∈ p.2.columns, PlainName d x from e1 ▸ hq.plain, ?_⟩
      simp only [resultCte]
      rw [e2]
      refine ⟨by simpa using hq.some, ?_⟩
      intro r hr
      obtain ⟨x, hx, rfl⟩ := List.mem_map.1 hr
      have hrec := hq.records x hx
      refine ⟨?_, ?_⟩
      · intro e
        have : x = [] := by simpa [recToks] using e
        rw [this] at hrec
        exact hq.key (List.eq_nil_of_length_eq_zero hrec.1.symm)
      · intro f hf
        obtain ⟨y, hy, rfl⟩ := List.mem_map.1 hf
        exact (hrec.2 y hy).2
    · refine ⟨pkey_fixed, hpk, hp, ?_⟩
      simp only [keyCte]
      refine ⟨by simpa [fromsOf] using joins_ne hok hL hD h, ?_⟩
      intro s hs'
      obtain ⟨q, hq, rfl⟩ := List.mem_map.1 hs'
      obtain ⟨p, _, j, _, ss, rfl, _, hg⟩ := froms_ok hs hok hcl hn hL hD q hq
      exact sel_ok hok hcl hn hL hD ht pk hpk hp hg
  · simpa [readAs, theQuery] using hc0
  · intro r hr
    obtain ⟨c, hc', rfl⟩ := List.mem_map.1 hr
    exact ref_ok hn (.inl ht) (hc c hc')
  · exact name_ok hn (.inl ht)
  · intro j hj
    simp only [readAs, theQuery, List.mem_singleton] at hj
    rw [hj]
    refine ⟨hkey, by simpa using hpk, ?_⟩
    intro e he
    obtain ⟨c, hc', rfl⟩ := List.mem_map.1 he
    exact ⟨⟨hkey, hp c hc'⟩, ref_ok hn (.inl ht) (hp c hc')⟩
  · simpa [readAs, theQuery] using hpk
  · intro r hr
    obtain ⟨c, hc', rfl⟩ := List.mem_map.1 hr
    exact ref_ok hn (.inl ht) (hp c hc')

theorem query_read (pk cols : List Str) (hpk : pk ≠ []) (hp : ∀ c ∈ pk, PlainName d c) (hc0 : cols ≠ [])
    (hc : ∀ c ∈ cols, PlainName d c) (h : leading L t ≠ []) :
    ∃ text, (final L).query d t pk cols = some text ∧ text ≠ [] ∧
      queryOf d (keywords d) text = some (readAs d L t pk cols) := by
  refine ⟨_, query_text hs hok hcl hn hL hD pk cols hpk h, by simp, ?_⟩
  unfold queryOf
  have key := readsP_query d t pk cols (resultsOf L t) (fromsOf L t) (by simpa [resultsOf] using h) ?_ [] (sep_nil d)
  · rw [List.append_nil] at key
    rw [key, lex_nil]
    simp only [Option.map_some, List.append_nil, Option.bind_some]
    exact readQuery_eq d _ (readsQuery_ok hs hok hcl hn hL hD ht pk cols hpk hp hc0 hc h)
  · intro p hp'
    obtain ⟨q, hq, e⟩ := results_ok hL p hp'
    rw [e]
    exact fun x hx => (hq.records x hx).2

/-! ## The common table expressions -/

omit hok hcl hL hD in
theorem rows_known (db : Db) (env : Env) (h : ∀ e ∈ env, (∃ n, e.1 = (resultName n).2) ∨ e.1 = b!"pkey_") :
    rowsOf same db env (nm t) = db t := by
  obtain ⟨u, hu, rfl⟩ := ht
  have hf := hn.free u hu
  unfold rowsOf nm Render.tableName
  by_cases e : u.id.1 = []
  · simp only [e, if_true]
    have : env.find? (fun e => same e.1 u.id.2) = none := by
      rw [List.find?_eq_none]
      intro x hx
      rcases h x hx with ⟨n, e'⟩ | e'
      · simp [e', hf.result n]
      · simp [e', hf.pkey]
    rw [this, ← e]
    rfl
  · have hf : ¬ (u.id.1 = [] ∨ u.id.1 = []) := by simp [e]
    rw [if_neg (by simpa using e)]

/-- The common table expressions before that of the keys. -/
def resultEnv (same : Str → Str → Bool) (val : List Tok → Option Str) (db : Db) (d : Dialect) (rs : List (Nat × Result)) :
    Env := rs.map fun r => ((resultName (r.1 + 1)).2, cteRows same val db [] (resultCte d r.1 r.2))

omit hs hok hcl hn hL hD ht in
theorem env_results (val : List Tok → Option Str) (db : Db) (rs : List (Nat × Result)) (rest : List Cte) (env : Env) :
    envOf same val db env (rs.map (fun r => resultCte d r.1 r.2) ++ rest) =
      envOf same val db (env ++ resultEnv same val db d rs) rest := by
  induction rs generalizing env with
  | nil => simp [resultEnv]
  | cons r rs ih =>
    rw [List.map_cons, List.cons_append, envOf, ih]
    simp only [resultEnv, List.map_cons, List.append_assoc, List.cons_append, List.nil_append]
    rfl

omit hs hok hcl hn hL hD ht in
theorem result_rows (val : List Tok → Option Str) (db : Db) (n : Nat) (r : Result) (row : Row) :
    cteRows same val db [] (resultCte d n r) row ↔ requested d val r.columns r.records row := by
  unfold cteRows resultCte requested
  constructor
  · rintro ⟨vs, rfl, x, hx, rfl⟩
    obtain ⟨rec, hrec, rfl⟩ := List.mem_map.1 hx
    exact ⟨rec, hrec, by simp [recToks, Function.comp_def]⟩
  · rintro ⟨rec, hrec, rfl⟩
    exact ⟨_, rfl, recToks d rec, List.mem_map.2 ⟨rec, hrec, rfl⟩, by simp [recToks, Function.comp_def]⟩

omit hok hcl hn hL hD ht in
theorem same_result {n m : Nat} (h : same (resultName n).2 (resultName m).2 = true) : n = m := by
  have := hs.lower _ _ h
  rw [(result_fixed n).lower, (result_fixed m).lower] at this
  exact result_injective this

omit hs hok hcl hn hL hD ht in
theorem result_pkey (n : Nat) : (resultName n).2 ≠ b!"pkey_" := by
  intro e
  have := congrArg List.head? e
  simp [resultName] at this

omit hok hcl hn hL hD ht in
theorem same_pkey (n : Nat) : same (resultName n).2 b!"pkey_" = false := by
  cases h : same (resultName n).2 b!"pkey_" with
  | false => rfl
  | true =>
    have := hs.lower _ _ h
    rw [(result_fixed n).lower, pkey_fixed.lower] at this
    exact absurd this (result_pkey n)

omit hok hcl hn hL hD ht in
theorem find_result (f : Answered × Nat → Row → Prop) (l : List (Answered × Nat)) {p : Answered × Nat} (hp : p ∈ l)
    (hu : ∀ q ∈ l, q.2 = p.2 → q = p) :
    (l.map fun q => ((resultName (q.2 + 1)).2, f q)).find? (fun e => same e.1 (resultName (p.2 + 1)).2) =
      some ((resultName (p.2 + 1)).2, f p) := by
  induction l with
  | nil => cases hp
  | cons x l ih =>
    rw [List.map_cons, List.find?_cons]
    cases e : same (resultName (x.2 + 1)).2 (resultName (p.2 + 1)).2 with
    | true =>
      have := same_result hs e
      rw [hu x (by simp) (by omega)]
    | false =>
      rcases List.mem_cons.1 hp with rfl | hp
      · rw [hs.refl] at e; cases e
      · exact ih hp fun q hq => hu q (by simp [hq])

omit hok hcl hn hL hD ht in
theorem rows_result (val : List Tok → Option Str) (db : Db) {p : Answered × Nat} (hp : p ∈ leading L t) (r : Row) :
    rowsOf same db (resultEnv same val db d (resultsOf L t)) (nm (resultName (p.2 + 1))) r ↔
      requested d val p.1.1.pkey p.1.1.records r := by
  have : nm (resultName (p.2 + 1)) = (none, (resultName (p.2 + 1)).2) := by
    simp [nm, Render.tableName, resultName]
  rw [this]
  unfold rowsOf resultEnv resultsOf
  rw [List.map_map]
  have := find_result hs (fun q => cteRows same val db [] (resultCte d q.2 ⟨q.1.1.pkey, q.1.1.records⟩)) (leading L t) hp (by
    intro q hq e
    have h1 := (zipIdx_mem (leading_mem.1 hp).1).2
    have h2 := (zipIdx_mem (leading_mem.1 hq).1).2
    rw [e, h1] at h2
    exact Prod.ext (Option.some.inj h2).symm e)
  dsimp only
  rw [show ((fun r : Nat × Result => ((resultName (r.1 + 1)).2, cteRows same val db [] (resultCte d r.1 r.2))) ∘
      fun p : Answered × Nat => (p.2, (⟨p.1.1.pkey, p.1.1.records⟩ : Result))) = fun q =>
    ((resultName (q.2 + 1)).2, cteRows same val db [] (resultCte d q.2 ⟨q.1.1.pkey, q.1.1.records⟩)) from rfl, this]
  exact result_rows (same := same) val db _ _ _

omit hs hok hcl hn hL hD ht in
theorem resultEnv_names (val : List Tok → Option Str) (db : Db) (rs : List (Nat × Result)) :
    ∀ e ∈ resultEnv same val db d rs, (∃ n, e.1 = (resultName n).2) := by
  intro e he
  obtain ⟨r, _, rfl⟩ := List.mem_map.1 he
  exact ⟨_, rfl⟩

theorem gives_iff (val : List Tok → Option Str) (db : Db) (pk : List Str) {p : Answered × Nat} (hp : p ∈ leading L t)
    {ss : List Step} (hg : Good d same cat (p.2 + 1) t ss) (vs : List (Option Str)) :
    (∃ out, From same db (resultEnv same val db d (resultsOf L t)) (selOf t pk (t, ss)) out ∧
        values same out (selOf t pk (t, ss)).columns = some vs) ↔
      ∃ r, Selects ((callOf d val p).db db) (t, ss) r ∧ vs = pk.map r := by
  have hrow : ∀ x r, (Known cat x ∨ x = resultName (p.2 + 1)) →
      (rowsOf same db (resultEnv same val db d (resultsOf L t)) (nm x) r ↔ (callOf d val p).db db x r) := by
    intro x r hx
    rcases hx with hx | rfl
    · rw [rows_known hs hn hx db _ fun e he => .inl (resultEnv_names val db _ e he)]
      exact (call_db_ne (known_ne hs hn hx _)).symm
    · rw [rows_result hs val db hp]
      exact (call_db_result (c := callOf d val p)).symm
  constructor
  · rintro ⟨out, hf, hv⟩
    rw [from_iff hs db _ t pk ss hg.valid hg.distinct] at hf
    obtain ⟨E, rfl, h1, h2⟩ := hf
    rw [show (selOf t pk (t, ss)).columns = pk.map (ref t) from rfl,
      values_scope hs hg.distinct E (by simp)] at hv
    refine ⟨E t, ⟨E, rfl, (hrow _ _ (.inl hg.known)).1 h1, ?_⟩, (Option.some.inj hv).symm⟩
    intro s hs'
    exact ⟨(hrow _ _ (hg.tables s hs').1).1 (h2 s hs').1, (h2 s hs').2⟩
  · rintro ⟨r, ⟨E, h0, h1, h2⟩, rfl⟩
    refine ⟨scope E (t :: ss.map (·.table)), ?_, ?_⟩
    · rw [from_iff hs db _ t pk ss hg.valid hg.distinct]
      refine ⟨E, rfl, (hrow _ _ (.inl hg.known)).2 (h0 ▸ h1), ?_⟩
      intro s hs'
      exact ⟨(hrow _ _ (hg.tables s hs').1).2 (h2 s hs').1, (h2 s hs').2⟩
    · rw [show (selOf t pk (t, ss)).columns = pk.map (ref t) from rfl,
        values_scope hs hg.distinct E (by simp)]
      rw [← h0]

/-- The calls of the requests. -/
def callsOf (d : Dialect) (val : List Tok → Option Str) (L : List Answered) : List Call := L.zipIdx.map (callOf d val)

theorem key_rows (val : List Tok → Option Str) (db : Db) (pk : List Str) (k : Row) :
    cteRows same val db (resultEnv same val db d (resultsOf L t)) (keyCte t pk (fromsOf L t)) k ↔
      ∃ c ∈ callsOf d val L, ∃ j ∈ c.joins t, ∃ q, toSteps j = some q ∧ ∃ r, Selects (c.db db) q r ∧
        k = asRow pk (pk.map r) := by
  unfold cteRows keyCte
  dsimp only
  constructor
  · rintro ⟨vs, rfl, s, hs', out, hf, hv⟩
    obtain ⟨q, hq, rfl⟩ := List.mem_map.1 hs'
    obtain ⟨p, hp, j, hj, ss, rfl, hss, hg⟩ := froms_ok hs hok hcl hn hL hD q hq
    obtain ⟨r, hr, rfl⟩ := (gives_iff hs hok hcl hn hL hD ht val db pk hp hg vs).1 ⟨out, hf, hv⟩
    exact ⟨_, List.mem_map.2 ⟨p, (leading_mem.1 hp).1, rfl⟩, j, hj, _, hss, r, hr, rfl⟩
  · rintro ⟨c, hc, j, hj, q, hq, r, hr, rfl⟩
    obtain ⟨p, hp, rfl⟩ := List.mem_map.1 hc
    obtain ⟨ss, hss, hg⟩ := join_good hs hok hcl hn hL hD hp hj
    have hp' := join_key hok hL hD hp hj
    rw [hss] at hq
    cases hq
    obtain ⟨out, hf, hv⟩ := (gives_iff hs hok hcl hn hL hD ht val db pk hp' hg _).2 ⟨r, hr, rfl⟩
    refine ⟨_, rfl, selOf t pk (t, ss), List.mem_map.2 ⟨(t, ss), ?_, rfl⟩, out, hf, hv⟩
    refine List.mem_map.2 ⟨j, List.mem_flatMap.2 ⟨p, hp', hj⟩, ?_⟩
    rw [hss]
    rfl

omit hs hok hcl hn hL hD ht in
theorem asRow_map (pk : List Str) (r : Row) {c : Str} (h : c ∈ pk) : asRow pk (pk.map r) c = r c := by
  unfold asRow
  induction pk with
  | nil => cases h
  | cons x pk ih =>
    rw [List.map_cons, List.zip_cons_cons, List.lookup_cons]
    by_cases e : c = x
    · subst e; simp
    · have : (c == x) = false := by simpa using e
      rw [this]
      rcases List.mem_cons.1 h with rfl | h
      · exact absurd rfl e
      · exact ih h

/-- The step from the keys to the table. -/
def keyStep (t : TableID) (pk : List Str) : Step := ⟨keyId, t, pk.map fun c => (c, c)⟩

omit hs hok hcl hn hL hD ht in
theorem main_eq (pk cols : List Str) : (readAs d L t pk cols).main = selOf t cols (t, [keyStep t pk]) := by
  simp [readAs, theQuery, selOf, keyStep, joinOf, keyId, ref, nm, Render.tableName, Function.comp_def]

omit hok hcl hL hD in
theorem main_distinct : Distinct same [t, keyId] := by
  obtain ⟨u, hu, rfl⟩ := ht
  have hf := (hn.free u hu).pkey
  have hne : u.id ≠ keyId := by
    intro e
    rw [e, keyId, hs.refl] at hf
    cases hf
  refine ⟨by simpa using hne, ?_⟩
  intro i hi j hj h
  simp only [List.mem_cons, List.not_mem_nil, or_false] at hi hj
  rcases hi with rfl | rfl <;> rcases hj with rfl | rfl
  · exact absurd rfl h
  · intro e; rw [show keyId.2 = b!"pkey_" from rfl, hs.false_symm hf] at e; cases e
  · intro e; rw [show keyId.2 = b!"pkey_" from rfl, hf] at e; cases e
  · exact absurd rfl h

omit hs hok hcl hn hL hD ht in
theorem main_valid (hd : Distinct same [t, keyId]) (pk : List Str) : ValidFrom [t] [keyStep t pk] := by
  refine ⟨?_, by simp [keyStep], trivial⟩
  have := hd.nodup
  simp only [List.nodup_cons, List.mem_singleton] at this
  simpa [keyStep] using fun e => this.1 e.symm

/-- The tables of the query with a row and its key. -/
def outOf (t : TableID) (pk : List Str) (r : Row) : Scope := [(nm t, r), (nm keyId, asRow pk (pk.map r))]

theorem main_from (val : List Tok → Option Str) (db : Db) (pk cols : List Str) (out : Scope) :
    From same db (envOf same val db [] (readAs d L t pk cols).ctes) (readAs d L t pk cols).main out ↔
      ∃ r, Dumped db (callsOf d val L) t pk r ∧ out = outOf t pk r := by
  have hd := main_distinct hs hn ht
  have henv : envOf same val db [] (readAs d L t pk cols).ctes = resultEnv same val db d (resultsOf L t) ++
      [(b!"pkey_", cteRows same val db (resultEnv same val db d (resultsOf L t)) (keyCte t pk (fromsOf L t)))] := by
    unfold readAs theQuery
    rw [env_results, List.nil_append]
    rfl
  rw [henv, main_eq]
  have hfind : ∀ k, rowsOf same db (resultEnv same val db d (resultsOf L t) ++
      [(b!"pkey_", cteRows same val db (resultEnv same val db d (resultsOf L t)) (keyCte t pk (fromsOf L t)))])
        (nm keyId) k ↔ cteRows same val db (resultEnv same val db d (resultsOf L t)) (keyCte t pk (fromsOf L t)) k := by
    intro k
    rw [show nm keyId = (none, b!"pkey_") from rfl]
    unfold rowsOf
    dsimp only
    rw [List.find?_append]
    have : (resultEnv same val db d (resultsOf L t)).find? (fun e => same e.1 b!"pkey_") = none := by
      rw [List.find?_eq_none]
      intro x hx
      obtain ⟨n, e⟩ := resultEnv_names val db _ x hx
      rw [e, same_pkey hs n]
      exact Bool.false_ne_true
    rw [this]
    simp [hs.refl]
  have htab : rowsOf same db (resultEnv same val db d (resultsOf L t) ++
      [(b!"pkey_", cteRows same val db (resultEnv same val db d (resultsOf L t)) (keyCte t pk (fromsOf L t)))])
        (nm t) = db t := by
    refine rows_known hs hn ht db _ fun e he => ?_
    rcases List.mem_append.1 he with he | he
    · exact .inl (resultEnv_names val db _ e he)
    · rw [List.mem_singleton.1 he]; exact .inr rfl
  rw [from_iff hs db _ t cols [keyStep t pk] (main_valid hd pk) hd]
  simp only [List.mem_singleton, forall_eq, htab]
  have hmap : ∀ {r r' : Row}, SameKey pk r' r → pk.map r' = pk.map r := by
    intro r r' h
    refine List.map_congr_left fun c hc => ?_
    obtain ⟨v, e1, e2⟩ := h (c, c) (List.mem_map.2 ⟨c, hc, rfl⟩)
    exact (show r' c = some v from e1).trans (show r c = some v from e2).symm
  have hsk : ∀ {r r' : Row}, SameKey pk (asRow pk (pk.map r')) r ↔ SameKey pk r' r := by
    intro r r'
    unfold SameKey Agree
    constructor <;> intro h p hp <;> obtain ⟨v, e1, e2⟩ := h p hp <;> obtain ⟨c, hc, rfl⟩ := List.mem_map.1 hp
    · exact ⟨v, by rw [← asRow_map pk r' hc]; exact e1, e2⟩
    · exact ⟨v, by rw [asRow_map pk r' hc]; exact e1, e2⟩
  constructor
  · rintro ⟨E, rfl, h1, h2, h3⟩
    rw [show (keyStep t pk).table = keyId from rfl, hfind, key_rows hs hok hcl hn hL hD ht] at h2
    obtain ⟨c, hc, j, hj, q, hq, r', hr', he⟩ := h2
    have h3 : SameKey pk (E keyId) (E t) := h3
    rw [he, hsk] at h3
    refine ⟨E t, ⟨h1, c, hc, j, hj, q, hq, r', hr', h3⟩, ?_⟩
    unfold outOf
    rw [← hmap h3, ← he]
    rfl
  · rintro ⟨r, ⟨h1, c, hc, j, hj, q, hq, r', hr', h3⟩, rfl⟩
    have hne : keyId ≠ t := by
      have := hd.nodup
      simp only [List.nodup_cons, List.mem_singleton] at this
      exact fun e => this.1 e.symm
    refine ⟨fun i => if i = t then r else asRow pk (pk.map r), ?_, ?_, ?_, ?_⟩
    · simp [scope, outOf, keyStep, hne]
    · simpa using h1
    · rw [show (keyStep t pk).table = keyId from rfl, hfind, key_rows hs hok hcl hn hL hD ht]
      refine ⟨c, hc, j, hj, q, hq, r', hr', ?_⟩
      simp only [hne, if_false]
      rw [hmap h3]
    · have : SameKey pk (asRow pk (pk.map r)) r := by
        rw [← hmap h3, hsk]; exact h3
      simpa [keyStep, hne, SameKey] using this

theorem query_valid (pk cols : List Str) : Valid same (readAs d L t pk cols) := by
  have hd := main_distinct hs hn ht
  have hitems : ∀ cols ss, (selOf t cols (t, ss)).items = (t :: ss.map (·.table)).map nm := by
    intro cols ss
    simp [Sel.items, selOf, joinOf, Function.comp_def]
  have hsel : ∀ cols ss, ValidFrom [t] ss → Distinct same (t :: ss.map (·.table)) →
      ValidSel same (selOf t cols (t, ss)) := by
    intro cols ss hv hdd
    refine ⟨validJoins hs ss [t] [t] (fun _ => Iff.rfl) hv hdd, ?_⟩
    intro r hr
    obtain ⟨c, _, rfl⟩ := List.mem_map.1 hr
    rw [hitems]
    exact resolves_scope hs hdd (by simp) c
  refine ⟨?_, ?_, ?_, ?_⟩
  · unfold readAs theQuery
    dsimp only
    rw [List.pairwise_append]
    refine ⟨?_, by simp, ?_⟩
    · rw [List.pairwise_map, resultsOf, List.pairwise_map]
      have h1 : (L.zipIdx).Pairwise fun a b => a.2 ≠ b.2 := by
        rw [← List.pairwise_map (f := fun p : Answered × Nat => p.2) (R := (· ≠ ·)), List.zipIdx_map_snd]
        exact List.nodup_range'
      refine (h1.sublist List.filter_sublist).imp ?_
      intro a b hab
      cases e : same (resultCte d a.2 ⟨a.1.1.pkey, a.1.1.records⟩).name (resultCte d b.2 ⟨b.1.1.pkey, b.1.1.records⟩).name with
      | false => rfl
      | true => exact absurd (Nat.succ.inj (same_result hs e)) hab
    · intro a ha b hb
      obtain ⟨p, _, rfl⟩ := List.mem_map.1 ha
      rw [List.mem_singleton.1 hb]
      exact same_pkey hs _
  · intro c hc
    simp only [readAs, theQuery, List.mem_append, List.mem_singleton] at hc
    rcases hc with hc | rfl
    · obtain ⟨p, hp, rfl⟩ := List.mem_map.1 hc
      obtain ⟨q, hq, e⟩ := results_ok hL p hp
      intro row hrow
      obtain ⟨rec, hrec, rfl⟩ := List.mem_map.1 hrow
      rw [e] at hrec ⊢
      simpa [recToks, resultCte] using (hq.records rec hrec).1
    · intro s hs'
      obtain ⟨q, hq, rfl⟩ := List.mem_map.1 hs'
      obtain ⟨p, _, j, _, ss, rfl, _, hg⟩ := froms_ok hs hok hcl hn hL hD q hq
      refine ⟨by simp [selOf, keyCte], hsel pk ss hg.valid hg.distinct, ?_⟩
      intro i hi _
      rw [hitems] at hi
      obtain ⟨x, hx, rfl⟩ := List.mem_map.1 hi
      have : Known cat x ∨ x = resultName (p.2 + 1) := by
        rcases List.mem_cons.1 hx with rfl | hx
        · exact .inl hg.known
        · obtain ⟨s, hs', rfl⟩ := List.mem_map.1 hx
          exact (hg.tables s hs').1
      rcases this with ⟨u, hu, rfl⟩ | rfl
      · exact (hn.free u hu).pkey
      · exact hs.false_symm (same_pkey hs _)
  · rw [main_eq]
    exact hsel cols _ (main_valid hd pk) hd
  · intro r hr
    obtain ⟨c, _, rfl⟩ := List.mem_map.1 hr
    rw [main_eq, hitems]
    exact resolves_scope hs hd (by simp) c

/-! ## The answers -/

theorem query_answers (val : List Tok → Option Str) (db : Db) (le : List (Option Str) → List (Option Str) → Prop)
    (pk cols : List Str) (answer : List (List (Option Str))) :
    Answers same val db le (readAs d L t pk cols) answer ↔
      Lists le pk cols (Dumped db (callsOf d val L) t pk) answer := by
  have hd := main_distinct hs hn ht
  have hfrom := main_from hs hok hcl hn hL hD ht val db pk cols
  have hval : ∀ (r : Row) (cs : List Str), values same (outOf t pk r) (cs.map (ref t)) = some (cs.map r) := by
    intro r cs
    have hne : keyId ≠ t := by
      have := hd.nodup
      simp only [List.nodup_cons, List.mem_singleton] at this
      exact fun e => this.1 e.symm
    have := values_scope hs hd (fun i => if i = t then r else asRow pk (pk.map r)) (i := t) (by simp) cs
    simpa [scope, outOf, hne] using this
  have hinj : ∀ r r', outOf t pk r = outOf t pk r' → r = r' := by
    intro r r' h
    unfold outOf at h
    have := List.cons.inj h
    exact (Prod.mk.inj this.1).2
  have hcols : (readAs d L t pk cols).main.columns = cols.map (ref t) := rfl
  have hord : (readAs d L t pk cols).order = pk.map (ref t) := rfl
  unfold Answers Lists
  rw [hcols, hord]
  have hpw : ∀ rs : List Row, ((rs.map (outOf t pk)).Pairwise fun a b => ∃ x y, values same a (pk.map (ref t)) = some x ∧
      values same b (pk.map (ref t)) = some y ∧ le x y) ↔ rs.Pairwise fun a b => le (pk.map a) (pk.map b) := by
    intro rs
    rw [List.pairwise_map]
    simp only [hval]
    constructor <;> intro h <;> refine h.imp ?_
    · rintro a b ⟨x, y, hx, hy, hle⟩
      cases hx; cases hy; exact hle
    · intro a b hle
      exact ⟨_, _, rfl, rfl, hle⟩
  have hnd : ∀ rs : List Row, (rs.map (outOf t pk)).Nodup ↔ rs.Nodup := by
    intro rs
    unfold List.Nodup
    rw [List.pairwise_map]
    constructor <;> intro h <;> refine h.imp ?_
    · intro a b hab e; exact hab (by rw [e])
    · intro a b hab e; exact hab (hinj _ _ e)
  have hans : ∀ rs : List Row, (rs.map (outOf t pk)).mapM (fun o => values same o (cols.map (ref t))) =
      some (rs.map fun r => cols.map r) := fun rs => mapM_map_some _ _ _ _ fun r _ => hval r cols
  constructor
  · rintro ⟨outs, h1, h2, h3, h4⟩
    have : ∃ rs : List Row, outs = rs.map (outOf t pk) := by
      have : ∀ o ∈ outs, ∃ r, o = outOf t pk r := fun o ho => by
        obtain ⟨r, _, e⟩ := (hfrom o).1 ((h2 o).1 ho)
        exact ⟨r, e⟩
      clear h1 h2 h3 h4
      induction outs with
      | nil => exact ⟨[], rfl⟩
      | cons o outs ih =>
        obtain ⟨r, hr⟩ := this o (by simp)
        obtain ⟨rs, hrs⟩ := ih fun x hx => this x (by simp [hx])
        exact ⟨r :: rs, by rw [hr, hrs]; rfl⟩
    obtain ⟨rs, rfl⟩ := this
    refine ⟨rs, (hnd rs).1 h1, ?_, (hpw rs).1 h3, ?_⟩
    · intro r
      have := (h2 (outOf t pk r)).trans (hfrom _)
      constructor
      · intro hr
        obtain ⟨r', h', e⟩ := this.1 (List.mem_map.2 ⟨r, hr, rfl⟩)
        exact hinj _ _ e ▸ h'
      · intro hr
        obtain ⟨r', h', e⟩ := List.mem_map.1 (this.2 ⟨r, hr, rfl⟩)
        exact hinj _ _ e ▸ h'
    · rw [hans] at h4
      exact (Option.some.inj h4).symm
  · rintro ⟨rs, h1, h2, h3, rfl⟩
    refine ⟨rs.map (outOf t pk), (hnd rs).2 h1, ?_, (hpw rs).2 h3, hans rs⟩
    intro o
    rw [hfrom, List.mem_map]
    constructor
    · rintro ⟨r, hr, rfl⟩
      exact ⟨r, (h2 r).1 hr, rfl⟩
    · rintro ⟨r, hr, rfl⟩
      exact ⟨r, (h2 r).2 hr, rfl⟩

end

/-! ## The theorems -/

/-- The calls of some requests: the results are numbered from one. -/
def AreCalls (d : Dialect) (val : List Tok → Option Str) (cat : Cat) : Nat → List Request → List Call → Prop
  | _, [], [] => True
  | n, q :: qs, c :: cs => c.num = n + 1 ∧ c.base = q.base.id ∧ c.pkey = q.pkey ∧
    (∀ r, c.result r ↔ requested d val q.pkey q.records r) ∧ IsCall cat q.extended c ∧ AreCalls d val cat (n + 1) qs cs
  | _, _, _ => False

theorem areCalls {d : Dialect} (val : List Tok → Option Str) {cat : Cat} (n : Nat) (L : List Answered)
    (hL : ∀ p ∈ L, RequestOk d cat p.1) (hD : Done cat n L) :
    AreCalls d val cat n (L.map (·.1)) ((L.zipIdx n).map (callOf d val)) := by
  induction L generalizing n with
  | nil => trivial
  | cons p L ih =>
    rw [List.zipIdx_cons]
    refine ⟨rfl, rfl, rfl, fun _ => Iff.rfl, ⟨p.1.base, p.2, (hL p (by simp)).base, rfl, hD (p, n) (by simp [List.zipIdx_cons]), rfl⟩, ?_⟩
    refine ih (n + 1) (fun x hx => hL x (by simp [hx])) fun x hx => hD x ?_
    rw [List.zipIdx_cons]
    exact List.mem_cons_of_mem _ hx

/-- C102: after any number of subset queries, `Query` gives for each table a text that the database reads as a
query.  All names in it mean something, and its answers are exactly the rows of the table with a key that
one of the joins selects: each once, with the columns asked for, in the order of the keys.  There is no query
only if there are no such rows. -/
theorem subset_query {d : Dialect} {same : Str → Str → Bool} {cat : Cat} (hs : Compares same) (hok : Cat.Ok cat)
    (hcl : Cat.Closed cat) (hn : Names d same cat) (val : List Tok → Option Str) (reqs : List Request)
    (hq : ∀ q ∈ reqs, RequestOk d cat q) :
    ∃ ss calls, Subsetter.run cat reqs = some ss ∧ AreCalls d val cat 0 reqs calls ∧
      ∀ t ∈ cat.tables, ∀ pk cols : List Str, pk ≠ [] → (∀ c ∈ pk, PlainName d c) → cols ≠ [] →
        (∀ c ∈ cols, PlainName d c) → ∃ text, ss.query d t.id pk cols = some text ∧
          (text = [] → ∀ db r, ¬ Dumped db calls t.id pk r) ∧
          (text ≠ [] → ∃ q, queryOf d (keywords d) text = some q ∧ Valid same q ∧
            ∀ db le answer, Answers same val db le q answer ↔ Lists le pk cols (Dumped db calls t.id pk) answer) := by
  obtain ⟨L, h1, h2, hD⟩ := run_eq hok hcl reqs fun q hq' => (hq q hq').base.mem
  have hL : ∀ p ∈ L, RequestOk d cat p.1 := fun p hp => hq _ (h2 ▸ List.mem_map.2 ⟨p, hp, rfl⟩)
  refine ⟨final L, callsOf d val L, h1, h2 ▸ areCalls val 0 L hL hD, ?_⟩
  intro t ht pk cols hpk hp hc0 hc
  have ht : Known cat t.id := ⟨t, ht, rfl⟩
  by_cases h : leading L t.id = []
  · refine ⟨[], ?_, ?_, fun h => absurd rfl h⟩
    · unfold Subsetter.query
      rw [if_pos (by simp [final, h])]
    · rintro _ db r ⟨_, c, hc, j, hj, _⟩
      obtain ⟨p, hp, rfl⟩ := List.mem_map.1 hc
      have := join_key hok hL hD hp hj
      rw [h] at this
      cases this
  · obtain ⟨text, e1, e2, e3⟩ := query_read hs hok hcl hn hL hD ht pk cols hpk hp hc0 hc h
    exact ⟨text, e1, fun e => absurd e e2, fun _ => ⟨_, e3, query_valid hs hok hcl hn hL hD ht pk cols,
      fun db le answer => query_answers hs hok hcl hn hL hD ht val db le pk cols answer⟩⟩

theorem calls_of {d : Dialect} {val : List Tok → Option Str} {cat : Cat} {n : Nat} {reqs : List Request}
    {calls : List Call} (h : AreCalls d val cat n reqs calls) :
    (∀ c ∈ calls, ∃ q ∈ reqs, c.base = q.base.id ∧ c.pkey = q.pkey ∧
      c.result = requested d val q.pkey q.records ∧ IsCall cat q.extended c) ∧
    ∀ q ∈ reqs, ∃ c ∈ calls, c.base = q.base.id ∧ c.pkey = q.pkey ∧ c.result = requested d val q.pkey q.records := by
  induction reqs generalizing n calls with
  | nil => cases calls with
    | nil => simp
    | cons c cs => exact h.elim
  | cons q qs ih => cases calls with
    | nil => exact h.elim
    | cons c cs =>
      obtain ⟨_, h1, h2, h3, h4, h5⟩ := h
      have h3 : c.result = requested d val q.pkey q.records := funext fun r => propext (h3 r)
      obtain ⟨i1, i2⟩ := ih h5
      refine ⟨?_, ?_⟩
      · intro x hx
        rcases List.mem_cons.1 hx with rfl | hx
        · exact ⟨q, by simp, h1, h2, h3, h4⟩
        · obtain ⟨y, hy, r⟩ := i1 x hx
          exact ⟨y, by simp [hy], r⟩
      · intro x hx
        rcases List.mem_cons.1 hx with rfl | hx
        · exact ⟨c, by simp, h1, h2, h3⟩
        · obtain ⟨y, hy, r⟩ := i2 x hx
          exact ⟨y, by simp [hy], r⟩

/-- C102 from the requests to the rows, for treelike foreign keys: the query that is written for a table gives
exactly the rows that were asked for and the rows that they refer to, directly or indirectly; each once, with
the columns asked for, in the order of the keys.  Without that shape there may be rows missing (C48). -/
theorem subset_query_rows_partial {d : Dialect} {same : Str → Str → Bool} {cat : Cat} (hs : Compares same)
    (hok : Cat.Ok cat) (hcl : Cat.Closed cat) (hn : Names d same cat) (val : List Tok → Option Str)
    (reqs : List Request) (hq : ∀ q ∈ reqs, RequestOk d cat q ∧ q.extended = false ∧ Treelike cat q.base.id) :
    ∃ ss, Subsetter.run cat reqs = some ss ∧
      ∀ t ∈ cat.tables, ∀ pk cols : List Str, pk ≠ [] → (∀ c ∈ pk, PlainName d c) → cols ≠ [] →
        (∀ c ∈ cols, PlainName d c) → ∃ text, ss.query d t.id pk cols = some text ∧
          (text = [] → ∀ db, IsKey db t.id pk → ∀ q ∈ reqs, ∀ r,
            ¬ Needed cat db q.base.id q.pkey (requested d val q.pkey q.records) t.id r) ∧
          (text ≠ [] → ∃ Q, queryOf d (keywords d) text = some Q ∧ Valid same Q ∧
            ∀ db, IsKey db t.id pk → ∀ le answer, Answers same val db le Q answer ↔ Lists le pk cols (fun r =>
              ∃ q ∈ reqs, Needed cat db q.base.id q.pkey (requested d val q.pkey q.records) t.id r) answer) := by
  obtain ⟨ss, calls, h1, h2, h3⟩ := subset_query hs hok hcl hn val reqs fun q h => (hq q h).1
  obtain ⟨hc1, hc2⟩ := calls_of h2
  have hcalls : ∀ c ∈ calls, IsCall cat false c ∧ NoClash cat c.base c.num ∧ Treelike cat c.base := by
    intro c hc
    obtain ⟨q, hq', e1, _, _, e4⟩ := hc1 c hc
    obtain ⟨hr, hx, ht⟩ := hq q hq'
    rw [hx] at e4
    rw [e1]
    exact ⟨e4, noClash hs hok hcl hn ⟨_, hr.base.mem, rfl⟩ _, ht⟩
  have key : ∀ db t pk, IsKey db t pk → ∀ r, Dumped db calls t pk r ↔
      ∃ q ∈ reqs, Needed cat db q.base.id q.pkey (requested d val q.pkey q.records) t r := by
    intro db t pk hk r
    constructor
    · intro h
      obtain ⟨c, hc, h⟩ := subset_minimal hok (fun c hc => ⟨(hcalls c hc).1, (hcalls c hc).2.1⟩) hk h
      obtain ⟨q, hq', e1, e2, e3, _⟩ := hc1 c hc
      rw [e1, e2, e3] at h
      exact ⟨q, hq', h⟩
    · rintro ⟨q, hq', h⟩
      obtain ⟨c, hc, e1, e2, e3⟩ := hc2 q hq'
      rw [← e1, ← e3, ← e2] at h
      exact subset_complete_partial hok hcalls hk hc h
  refine ⟨ss, h1, fun t ht pk cols a1 a2 a3 a4 => ?_⟩
  obtain ⟨text, b1, b2, b3⟩ := h3 t ht pk cols a1 a2 a3 a4
  refine ⟨text, b1, fun e db hk q hq' r hr => b2 e db r ((key db t.id pk hk r).2 ⟨q, hq', hr⟩), fun e => ?_⟩
  obtain ⟨Q, c1, c2, c3⟩ := b3 e
  refine ⟨Q, c1, c2, fun db hk le answer => ?_⟩
  rw [c3, show Dumped db calls t.id pk = fun r => ∃ q ∈ reqs, Needed cat db q.base.id q.pkey
    (requested d val q.pkey q.records) t.id r from funext fun r => propext (key db t.id pk hk r)]

end SelectSpec
