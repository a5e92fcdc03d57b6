import Verif.Props.Subset

/-!
# Where subset dumps fail: C48, C49

The witnesses are small databases with one row per table.
-/

namespace Sqddl.Subset
open Go SubsetSpec

/-! ## Witnesses -/

/-- A row given by its values. -/
def row (l : List (Str × Str)) : Row := fun c => l.lookup c

/-- A database given by lists of rows. -/
def dbOf (data : List (TableID × List (Str × Str))) : Db := fun t r => ∃ l, (t, l) ∈ data ∧ r = row l

/-- A table without schema. -/
def tid (s : Str) : TableID := ([], s)

/-- A foreign key with one column that refers to `id`. -/
def fk (t c ref : Str) : Fkey :=
  { name := t ++ c, table := tid t, columns := [c], refTable := tid ref, refColumns := [b!"id"] }

/-- A table with primary key `id`. -/
def tbl (t : Str) (fs : List Fkey) : Table := ⟨tid t, some [b!"id"], fs⟩

/-- The joins of a finished computation. -/
def joinsOf : Out → TableID → List Join
  | .done st, t => st.joins.get t
  | _, _ => []

/-- The call of `Subset` or `ExtendedSubset` that selects the rows of `base` with `id` 1. -/
def callOf (ext : Bool) (cat : Cat) (base : Table) : Call where
  num := 1
  base := base.id
  pkey := [b!"id"]
  result := fun r => r = row [(b!"id", b!"1")]
  joins := joinsOf (subsetOf ext cat 1 base [b!"id"])

theorem isCall_of {cat : Cat} (hok : Cat.Ok cat) (hcl : Cat.Closed cat) {base : Table} (ext : Bool)
    (hb : base ∈ cat.tables) (hp : base.pkey = some [b!"id"]) : IsCall cat ext (callOf ext cat base) := by
  have h1 := subset_terminates (n := 1) (pkey := [b!"id"]) ext hok hb
  have h2 := subset_no_panic (n := 1) (pkey := [b!"id"]) ext hok hcl hb
  cases h : subsetOf ext cat 1 base [b!"id"] with
  | panic => exact absurd h h2
  | timeout => exact absurd h h1
  | done st =>
    refine ⟨base, st, ⟨hb, hp⟩, rfl, h, ?_⟩
    simp only [callOf, h]
    rfl

/-- A table of a witness has `id` as its primary key, if its rows have different ids. -/
theorem isKey_of {data : List (TableID × List (Str × Str))} {t : TableID}
    (h1 : ∀ p ∈ data, p.1 = t → ∃ v, p.2.lookup b!"id" = some v)
    (h2 : ∀ p ∈ data, ∀ q ∈ data, p.1 = t → q.1 = t → p.2.lookup b!"id" = q.2.lookup b!"id" →
      p.2 = q.2) : IsKey (dbOf data) t [b!"id"] := by
  constructor
  · rintro r ⟨l, hl, rfl⟩ c hc
    rw [List.mem_singleton.1 hc]
    obtain ⟨v, hv⟩ := h1 _ hl rfl
    simp only [row] at *
    rw [hv]
    simp
  · rintro r r' ⟨l, hl, rfl⟩ ⟨l', hl', rfl⟩ hs
    obtain ⟨v, h3, h4⟩ := hs (b!"id", b!"id") (by simp)
    have : l = l' := h2 _ hl _ hl' rfl rfl (h3.trans h4.symm)
    rw [this]

/-! ### Evaluating joins over a witness -/

abbrev Data := List (TableID × List (Str × Str))

/-- The equations of a join hold. -/
def agreeB (on : List (Str × Str)) (l l' : List (Str × Str)) : Bool :=
  on.all fun p => (l.lookup p.1).isSome && l.lookup p.1 == l'.lookup p.2

theorem agreeB_iff {on : List (Str × Str)} {l l' : List (Str × Str)} :
    agreeB on l l' = true ↔ Agree on (row l) (row l') := by
  simp only [agreeB, List.all_eq_true, Bool.and_eq_true, beq_iff_eq, Agree, row]
  constructor
  · intro h p hp
    obtain ⟨h1, h2⟩ := h p hp
    obtain ⟨v, hv⟩ := Option.isSome_iff_exists.1 h1
    exact ⟨v, hv, h2 ▸ hv⟩
  · intro h p hp
    obtain ⟨v, h1, h2⟩ := h p hp
    exact ⟨by rw [h1]; rfl, h1.trans h2.symm⟩

/-- The values that a table is bound to. -/
def boundTo (bound : Data) (t : TableID) : List (Str × Str) := (bound.lookup t).getD []

/-- The rows chosen for the tables make up a row of the join. -/
def holds (data bound : Data) (q : TableID × List Step) : Bool :=
  data.contains (q.1, boundTo bound q.1) && q.2.all fun s =>
    data.contains (s.table, boundTo bound s.table) &&
      agreeB s.on (boundTo bound s.table) (boundTo bound s.other)

theorem selects_of {data : Data} (bound : Data) {q : TableID × List Step}
    (h : holds data bound q = true) : Selects (dbOf data) q (row (boundTo bound q.1)) := by
  simp only [holds, Bool.and_eq_true, List.all_eq_true, List.contains_iff_mem] at h
  refine ⟨fun t => row (boundTo bound t), rfl, ⟨_, h.1, rfl⟩, fun s hs => ?_⟩
  obtain ⟨h1, h2⟩ := h.2 s hs
  exact ⟨⟨_, h1, rfl⟩, agreeB_iff.1 h2⟩

/-- There are rows that make up a row of the join. -/
def possible (data : Data) : Data → List Step → Bool
  | _, [] => true
  | bound, s :: r => data.any fun p => p.1 == s.table &&
      (bound.lookup s.other).elim true (agreeB s.on p.2) && possible data ((s.table, p.2) :: bound) r

theorem mem_of_lookup {bound : Data} {t : TableID} {l : List (Str × Str)}
    (h : bound.lookup t = some l) : (t, l) ∈ bound := by
  induction bound with
  | nil => simp at h
  | cons p bound ih =>
    obtain ⟨a, b⟩ := p
    rw [List.lookup_cons] at h
    split at h
    · rename_i he
      cases h
      rw [beq_iff_eq.1 he]
      simp
    · exact List.mem_cons_of_mem _ (ih h)

theorem possible_of {data bound : Data} {ss : List Step} {env : TableID → Row}
    (hb : ∀ p ∈ bound, env p.1 = row p.2)
    (h : ∀ s ∈ ss, dbOf data s.table (env s.table) ∧ Agree s.on (env s.table) (env s.other)) :
    possible data bound ss = true := by
  induction ss generalizing bound with
  | nil => rfl
  | cons s ss ih =>
    obtain ⟨⟨l, hl, he⟩, hag⟩ := h s (by simp)
    simp only [possible, List.any_eq_true, Bool.and_eq_true, beq_iff_eq]
    refine ⟨(s.table, l), hl, ⟨rfl, ?_⟩, ih ?_ fun s' hs => h s' (List.mem_cons_of_mem _ hs)⟩
    · cases hlo : bound.lookup s.other with
      | none => rfl
      | some l' =>
        have := hb _ (mem_of_lookup hlo)
        simp only at this
        rw [he, this] at hag
        exact agreeB_iff.2 hag
    · intro p hp
      rcases List.mem_cons.1 hp with rfl | hp
      · exact he
      · exact hb p hp

theorem selects_possible {data : Data} {q : TableID × List Step} {l : List (Str × Str)}
    (h : Selects (dbOf data) q (row l)) : possible data [(q.1, l)] q.2 = true := by
  obtain ⟨env, he, _, hs⟩ := h
  refine possible_of ?_ hs
  intro p hp
  rw [List.mem_singleton.1 hp]
  exact he

/-- The tables that the queries of a call see. -/
theorem callOf_db {ext : Bool} {cat : Cat} {base : Table} {data : Data}
    (h : ∀ p ∈ data, p.1 ≠ resultName 1) :
    (callOf ext cat base).db (dbOf data) = dbOf ((resultName 1, [(b!"id", b!"1")]) :: data) := by
  funext t r
  apply propext
  by_cases ht : t = resultName 1
  · subst ht
    refine (call_db_result (c := callOf ext cat base)).trans ?_
    simp only [callOf, dbOf, List.mem_cons]
    constructor
    · rintro rfl
      exact ⟨_, .inl rfl, rfl⟩
    · rintro ⟨l, hl | hl, rfl⟩
      · cases hl; rfl
      · exact absurd rfl (h _ hl)
  · refine (call_db_ne (c := callOf ext cat base) ht).trans ?_
    simp only [dbOf, List.mem_cons]
    constructor
    · rintro ⟨l, hl, rfl⟩
      exact ⟨l, .inr hl, rfl⟩
    · rintro ⟨l, hl | hl, rfl⟩
      · cases hl; exact absurd rfl ht
      · exact ⟨l, hl, rfl⟩

/-- A row is in the dump of a witness, if rows can be chosen for one of the joins. -/
theorem dumped_of {ext : Bool} {cat : Cat} {base : Table} {data : Data}
    (h : ∀ p ∈ data, p.1 ≠ resultName 1) {t : TableID} (bound : Data) {j : Join}
    (hj : j ∈ (callOf ext cat base).joins t) {ss : List Step} (hs : toSteps j = some (t, ss))
    (hh : holds ((resultName 1, [(b!"id", b!"1")]) :: data) bound (t, ss) = true)
    (hid : ((boundTo bound t).lookup b!"id").isSome) (hm : (t, boundTo bound t) ∈ data) :
    Dumped (dbOf data) [callOf ext cat base] t [b!"id"] (row (boundTo bound t)) := by
  refine ⟨⟨_, hm, rfl⟩, _, List.mem_singleton.2 rfl, j, hj, _, hs, _,
    callOf_db h ▸ selects_of bound hh, ?_⟩
  intro p hp
  obtain ⟨v, hv⟩ := Option.isSome_iff_exists.1 hid
  simp only [List.map_cons, List.map_nil, List.mem_singleton] at hp
  subst hp
  exact ⟨v, hv, hv⟩

/-- A row is not in the dump of a witness, if no join gives it. -/
theorem not_dumped_of {ext : Bool} {cat : Cat} {base : Table} {data : Data}
    (h : ∀ p ∈ data, p.1 ≠ resultName 1) {t : TableID} {l : List (Str × Str)}
    (ht : t ≠ resultName 1) (hk : IsKey (dbOf data) t [b!"id"]) (hj : ∀ j ∈ (callOf ext cat base).joins t, ∀ q,
      toSteps j = some q → q.1 = t ∧ possible ((resultName 1, [(b!"id", b!"1")]) :: data) [(q.1, l)] q.2 = false) :
    ¬ Dumped (dbOf data) [callOf ext cat base] t [b!"id"] (row l) := by
  rintro ⟨hr, c, hc, j, hjm, q, hq, r', hs, hsame⟩
  rw [List.mem_singleton.1 hc] at hjm hs
  obtain ⟨h1, h2⟩ := hj j hjm q hq
  have hr' : dbOf data t r' := by
    obtain ⟨env, he, hd, _⟩ := hs
    rw [h1] at hd
    exact (call_db_ne (c := callOf ext cat base) ht).1 hd
  have : r' = row l := hk.unique _ _ hr' hr hsame
  rw [this, callOf_db h] at hs
  rw [selects_possible hs] at h2
  cases h2

/-- C48 for all catalogs with a property: for every row in a dump, the rows that it refers to by foreign
keys are in the dump too. -/
def Intact (ext : Bool) (P : Cat → Prop) : Prop :=
  ∀ (cat : Cat) (db : Db) (calls : List Call), Cat.Ok cat → Cat.Closed cat → P cat →
    (∀ c ∈ calls, IsCall cat ext c ∧ NoClash cat c.base c.num) →
    ∀ f ∈ cat.fkeys, ∀ pk pk', IsKey db f.table pk → IsKey db f.refTable pk' →
    ∀ r r', Dumped db calls f.table pk r → db f.refTable r' → Refers f r r' →
      Dumped db calls f.refTable pk' r'

/-- Foreign keys without cycles. -/
def Acyclic (cat : Cat) : Prop := ∃ rank : TableID → Nat, ∀ f ∈ cat.fkeys, rank f.refTable < rank f.table

theorem not_intact {ext : Bool} {P : Cat → Prop} (cat : Cat) (base : Table) (data : Data) (f : Fkey)
    (hok : Cat.Ok cat) (hcl : Cat.Closed cat) (hP : P cat) (hb : base ∈ cat.tables)
    (hp : base.pkey = some [b!"id"]) (hnc : NoClash cat base.id 1) (hf : f ∈ cat.fkeys)
    (hd : ∀ p ∈ data, p.1 ≠ resultName 1)
    (hk : ∀ t, IsKey (dbOf data) t [b!"id"]) {bound : Data} {j : Join} {ss : List Step}
    (hj : j ∈ joinsOf (subsetOf ext cat 1 base [b!"id"]) f.table) (hs : toSteps j = some (f.table, ss))
    (hh : holds ((resultName 1, [(b!"id", b!"1")]) :: data) bound (f.table, ss) = true)
    (hid : ((boundTo bound f.table).lookup b!"id").isSome) (hm : (f.table, boundTo bound f.table) ∈ data)
    {l : List (Str × Str)} (hl : (f.refTable, l) ∈ data)
    (href : agreeB (f.columns.zip f.refColumns) (boundTo bound f.table) l = true)
    (hno : ∀ j ∈ joinsOf (subsetOf ext cat 1 base [b!"id"]) f.refTable, (toSteps j).all fun q =>
      q.1 = f.refTable && !possible ((resultName 1, [(b!"id", b!"1")]) :: data) [(q.1, l)] q.2) :
    ¬ Intact ext P := by
  intro h
  have hcall := isCall_of hok hcl ext hb hp
  refine not_dumped_of (ext := ext) (cat := cat) (base := base) hd (hnc.refTable f hf) (hk _) ?_
    (h cat (dbOf data) [callOf ext cat base] hok hcl hP
      (fun c hc => List.mem_singleton.1 hc ▸ ⟨hcall, hnc⟩) f hf _ _ (hk _) (hk _) _ _
      (dumped_of hd bound hj hs hh hid hm) ⟨l, hl, rfl⟩ (agreeB_iff.1 href))
  intro j hj q hq
  have := hno j hj
  rw [hq] at this
  simpa using this

/-! ## Diamonds -/

/-- `A` refers to `B` and `C`, `C` refers to `B`, `B` refers to `D`. -/
def diamond : Cat :=
  ⟨[tbl b!"A" [fk b!"A" b!"b" b!"B", fk b!"A" b!"c" b!"C"], tbl b!"B" [fk b!"B" b!"d" b!"D"],
    tbl b!"C" [fk b!"C" b!"b" b!"B"], tbl b!"D" []]⟩

/-- A row of `A` that refers to a row of `B`, which refers to a row of `D`. -/
def diamondRows : Data :=
  [(tid b!"A", [(b!"id", b!"1"), (b!"b", b!"1")]), (tid b!"B", [(b!"id", b!"1"), (b!"d", b!"1")]),
    (tid b!"D", [(b!"id", b!"1")])]

/-- C48 fails even without cycles: two ways lead from `A` to `B`, but only one of them is followed further,
to `D`. -/
theorem subset_intact_refuted : ¬ Intact false Acyclic := by
  refine not_intact diamond (tbl b!"A" [fk b!"A" b!"b" b!"B", fk b!"A" b!"c" b!"C"]) diamondRows
    (fk b!"B" b!"d" b!"D") ⟨by decide +kernel, by decide +kernel, by decide +kernel⟩
    (by unfold Cat.Closed; decide +kernel)
    ⟨fun t => if t = tid b!"A" then 3 else if t = tid b!"C" then 2 else if t = tid b!"B" then 1 else 0,
      by decide +kernel⟩ (by decide +kernel) rfl
    ⟨by decide +kernel, by decide +kernel, by decide +kernel⟩ (by decide +kernel) (by decide +kernel)
    (fun t => isKey_of ?_ ?_)
    (bound := (resultName 1, [(b!"id", b!"1")]) :: diamondRows)
    (j := ⟨[tid b!"A", tid b!"B"], [baseFkey 1 (tid b!"A") [b!"id"], fk b!"A" b!"b" b!"B"]⟩)
    (by decide +kernel) rfl (by decide +kernel) (by decide +kernel) (by decide +kernel)
    (l := [(b!"id", b!"1")]) (by decide +kernel) (by decide +kernel) (by decide +kernel)
  · simp only [diamondRows, List.forall_mem_cons]
    exact ⟨fun _ => ⟨_, rfl⟩, fun _ => ⟨_, rfl⟩, fun _ => ⟨_, rfl⟩, by simp⟩
  · have : ∀ p ∈ diamondRows, ∀ q ∈ diamondRows, p.1 = q.1 → p.2 = q.2 := by decide +kernel
    exact fun p hp q hq h1 h2 _ => this p hp q hq (h1.trans h2.symm)

/-! ## Rows that refer to rows of the same table -/

/-- A table that refers to itself. -/
def selfish : Cat := ⟨[tbl b!"A" [fk b!"A" b!"parent" b!"A"]]⟩

/-- A row and its parent. -/
def selfishRows : Data :=
  [(tid b!"A", [(b!"id", b!"1"), (b!"parent", b!"2")]), (tid b!"A", [(b!"id", b!"2")])]

/-- A foreign key to the same table is not followed. -/
theorem subset_self_reference_refuted : ¬ Intact false fun cat => cat.fkeys.length = 1 := by
  refine not_intact selfish (tbl b!"A" [fk b!"A" b!"parent" b!"A"]) selfishRows
    (fk b!"A" b!"parent" b!"A") ⟨by decide +kernel, by decide +kernel, by decide +kernel⟩
    (by unfold Cat.Closed; decide +kernel) (by decide +kernel) (by decide +kernel) rfl
    ⟨by decide +kernel, by decide +kernel, by decide +kernel⟩ (by decide +kernel) (by decide +kernel)
    (fun t => isKey_of ?_ ?_)
    (bound := (resultName 1, [(b!"id", b!"1")]) :: selfishRows)
    (j := ⟨[tid b!"A"], [baseFkey 1 (tid b!"A") [b!"id"]]⟩)
    (by decide +kernel) rfl (by decide +kernel) (by decide +kernel) (by decide +kernel)
    (l := [(b!"id", b!"2")]) (by decide +kernel) (by decide +kernel) (by decide +kernel)
  · simp only [selfishRows, List.forall_mem_cons]
    exact ⟨fun _ => ⟨_, rfl⟩, fun _ => ⟨_, rfl⟩, by simp⟩
  · have : ∀ p ∈ selfishRows, ∀ q ∈ selfishRows,
        p.2.lookup b!"id" = q.2.lookup b!"id" → p.2 = q.2 := by decide +kernel
    exact fun p hp q hq _ _ h => this p hp q hq h

/-! ## Extended subsets -/

/-- `B` refers to `A`, and `C` refers to both. -/
def triangle : Cat :=
  ⟨[tbl b!"A" [], tbl b!"B" [fk b!"B" b!"a" b!"A"],
    tbl b!"C" [fk b!"C" b!"a" b!"A", fk b!"C" b!"b" b!"B"]]⟩

/-- A row of `C` that refers to a row of `A` and to a row of `B`, which does not refer to a row of `A`. -/
def triangleRows : Data :=
  [(tid b!"A", [(b!"id", b!"1")]), (tid b!"B", [(b!"id", b!"1")]),
    (tid b!"C", [(b!"id", b!"1"), (b!"a", b!"1"), (b!"b", b!"1")])]

/-- C48 fails for extended subsets even without cycles: a foreign key that was followed against its
direction is not followed in its direction any more. -/
theorem extended_subset_intact_refuted : ¬ Intact true Acyclic := by
  refine not_intact triangle (tbl b!"A" []) triangleRows
    (fk b!"C" b!"b" b!"B") ⟨by decide +kernel, by decide +kernel, by decide +kernel⟩
    (by unfold Cat.Closed; decide +kernel)
    ⟨fun t => if t = tid b!"C" then 2 else if t = tid b!"B" then 1 else 0,
      by decide +kernel⟩ (by decide +kernel) rfl
    ⟨by decide +kernel, by decide +kernel, by decide +kernel⟩ (by decide +kernel) (by decide +kernel)
    (fun t => isKey_of ?_ ?_)
    (bound := (resultName 1, [(b!"id", b!"1")]) :: triangleRows)
    (j := ⟨[tid b!"A", tid b!"C"], [baseFkey 1 (tid b!"A") [b!"id"], fk b!"C" b!"a" b!"A"]⟩)
    (by decide +kernel) rfl (by decide +kernel) (by decide +kernel) (by decide +kernel)
    (l := [(b!"id", b!"1")]) (by decide +kernel) (by decide +kernel) (by decide +kernel)
  · simp only [triangleRows, List.forall_mem_cons]
    exact ⟨fun _ => ⟨_, rfl⟩, fun _ => ⟨_, rfl⟩, fun _ => ⟨_, rfl⟩, by simp⟩
  · have : ∀ p ∈ triangleRows, ∀ q ∈ triangleRows, p.1 = q.1 → p.2 = q.2 := by decide +kernel
    exact fun p hp q hq h1 h2 _ => this p hp q hq (h1.trans h2.symm)

/-! ## Tables that are left out, tables that are unknown -/

/-- A table without primary key is not dumped, although rows in the dump refer to it. -/
theorem subset_tables_refuted : ¬ ∀ (cat : Cat) (base : Table) (st : St), Cat.Ok cat → Cat.Closed cat →
    base ∈ cat.tables → base.pkey = some [b!"id"] → subsetOf false cat 1 base [b!"id"] = .done st →
    ∀ t ∈ st.joins.keys, t ∈ tablesOf cat st.joins.keys := by
  intro h
  let base := tbl b!"A" [fk b!"A" b!"b" b!"B"]
  let cat : Cat := ⟨[base, ⟨tid b!"B", none, []⟩]⟩
  have hok : Cat.Ok cat := ⟨by decide +kernel, by decide +kernel, by decide +kernel⟩
  have hcl : Cat.Closed cat := by unfold Cat.Closed; decide +kernel
  have hb : base ∈ cat.tables := by decide +kernel
  obtain ⟨_, st, _, _, hst, _⟩ := isCall_of hok hcl false hb rfl
  have hkeys : (match subsetOf false cat 1 base [b!"id"] with
    | .done st => decide (tid b!"B" ∈ st.joins.keys) && !decide (tid b!"B" ∈ tablesOf cat st.joins.keys)
    | _ => false) = true := by decide +kernel
  cases hs : subsetOf false cat 1 base [b!"id"] with
  | panic => rw [hs] at hkeys; cases hkeys
  | timeout => rw [hs] at hkeys; cases hkeys
  | done st =>
    rw [hs] at hkeys
    simp only [Bool.and_eq_true, decide_eq_true_eq, Bool.not_eq_true', decide_eq_false_iff_not] at hkeys
    exact hkeys.2 (h cat base st hok hcl hb rfl hs _ hkeys.1)

/-- `Tables` gives the tables that were reached and have a primary key. -/
theorem mem_tablesOf {cat : Cat} (hok : Cat.Ok cat) {keys : List TableID} {t : Table}
    (ht : t ∈ cat.tables) : t.id ∈ tablesOf cat keys ↔ t.id ∈ keys ∧ t.pkey ≠ none := by
  simp [tablesOf, lookup_mem hok ht, Option.isSome_iff_ne_none]

/-- Where a foreign key refers to a table that the filter of the dump excludes, `Subset` crashes. -/
theorem subset_outside_refuted : ¬ ∀ (cat : Cat) (base : Table), Cat.Ok cat → base ∈ cat.tables →
    subsetOf false cat 1 base [b!"id"] ≠ .panic := by
  intro h
  have := h ⟨[tbl b!"A" [fk b!"A" b!"b" b!"B"]]⟩ (tbl b!"A" [fk b!"A" b!"b" b!"B"])
    ⟨by decide +kernel, by decide +kernel, by decide +kernel⟩ (by decide +kernel)
  cases hs : subsetOf false ⟨[tbl b!"A" [fk b!"A" b!"b" b!"B"]]⟩ (1) (tbl b!"A" [fk b!"A" b!"b" b!"B"])
      [b!"id"] with
  | panic => exact this hs
  | _ =>
    have h2 : (match subsetOf false ⟨[tbl b!"A" [fk b!"A" b!"b" b!"B"]]⟩ 1
      (tbl b!"A" [fk b!"A" b!"b" b!"B"]) [b!"id"] with | .panic => true | _ => false) = true := by
      decide +kernel
    rw [hs] at h2
    cases h2

/-- A table called like the result of a subset query is joined to itself. -/
theorem subset_clash_refuted : ¬ ∀ (n : Nat) (base : TableID) (pkey : List Str) (ss : List Step),
    toSteps ⟨[base], [baseFkey n base pkey]⟩ = some (base, ss) → ValidFrom [base] ss := by
  intro h
  have := h 1 (resultName 1) [b!"id"] _ rfl
  exact this.1 (by decide +kernel)

/-! ## Instances -/

/-- `A` refers to `B` and `C`, both refer to `D`: treelike. -/
def tree : Cat :=
  ⟨[tbl b!"A" [fk b!"A" b!"b" b!"B", fk b!"A" b!"c" b!"C"], tbl b!"B" [fk b!"B" b!"d" b!"D"],
    tbl b!"C" [fk b!"C" b!"d" b!"D"], tbl b!"D" []]⟩

/-- A witness for the theorems on complete dumps. -/
example : Cat.Ok tree ∧ Cat.Closed tree ∧ Treelike tree (tid b!"A") ∧ NoClash tree (tid b!"A") 1 ∧
    IsCall tree false (callOf false tree (tbl b!"A" [fk b!"A" b!"b" b!"B", fk b!"A" b!"c" b!"C"])) := by
  have hok : Cat.Ok tree := ⟨by decide +kernel, by decide +kernel, by decide +kernel⟩
  have hcl : Cat.Closed tree := by unfold Cat.Closed; decide +kernel
  refine ⟨hok, hcl, ⟨?_, ?_⟩, ⟨by decide +kernel, by decide +kernel, by decide +kernel⟩,
    isCall_of hok hcl false (by decide +kernel) rfl⟩
  · have : ∀ f ∈ tree.fkeys, f.refTable ≠ tid b!"A" := by decide +kernel
    exact fun f hf _ => this f hf
  · have : ∀ f ∈ tree.fkeys, ∀ g ∈ tree.fkeys, f.refTable = g.refTable → f ≠ g →
      ∀ h ∈ tree.fkeys, h.table ≠ f.refTable := by decide +kernel
    exact fun f hf g hg _ _ => this f hf g hg

/-- Its joins: two ways lead to `D`. -/
example : (joinsOf (subsetOf false tree 1 (tbl b!"A" [fk b!"A" b!"b" b!"B", fk b!"A" b!"c" b!"C"])
    [b!"id"]) (tid b!"D")).map Join.tables =
    [[tid b!"A", tid b!"C", tid b!"D"], [tid b!"A", tid b!"B", tid b!"D"]] := by decide +kernel

/-- A cycle of foreign keys: the computation ends. -/
example : (joinsOf (subsetOf true ⟨[tbl b!"A" [fk b!"A" b!"b" b!"B"], tbl b!"B" [fk b!"B" b!"a" b!"A"]]⟩ 1
    (tbl b!"A" [fk b!"A" b!"b" b!"B"]) [b!"id"]) (tid b!"B")).map Join.tables =
    [[tid b!"A", tid b!"B"]] := by decide +kernel

end Sqddl.Subset
