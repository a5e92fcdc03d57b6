import Verif.Lemmas.SubsetMeaning

/-!
# The calls of which the query of a subset dump consists
-/

namespace SelectSpec
open Go SqlSpec DdlText Sqddl Sqddl.Subset SubsetSpec

/-! ## What `Subset` leaves behind -/

/-- A request and the joins that were found for it. -/
abbrev Answered := Request × St

/-- The requests that lead to a table, with their numbers. -/
def leading (L : List Answered) (t : TableID) : List (Answered × Nat) :=
  L.zipIdx.filter fun p => t ∈ p.1.2.joins.keys

/-- What is known after these requests. -/
def final (L : List Answered) : Subsetter where
  results := L.map fun p => ⟨p.1.pkey, p.1.records⟩
  tableResults := fun t => (leading L t).map (·.2)
  tableJoins := fun t => (leading L t).flatMap fun p => p.1.2.joins.get t

theorem final_add (L : List Answered) (q : Request) (st : St) :
    (final L).add ⟨q.pkey, q.records⟩ st.joins = final (L ++ [(q, st)]) := by
  unfold Subsetter.add final
  have : ∀ t, leading (L ++ [(q, st)]) t = leading L t ++ if t ∈ st.joins.keys then [((q, st), L.length)] else [] := by
    intro t
    simp only [leading, List.zipIdx_append, List.filter_append, Nat.zero_add, List.zipIdx_cons, List.zipIdx_nil]
    by_cases h : t ∈ st.joins.keys <;> simp [h]
  simp only [Subsetter.mk.injEq]
  refine ⟨by simp, ?_, ?_⟩
  · funext t
    rw [this]
    by_cases h : t ∈ st.joins.keys <;> simp [h]
  · funext t
    rw [this]
    by_cases h : t ∈ st.joins.keys <;> simp [h]

/-- The joins are those of the requests; the first one has the number `n`. -/
def Done (cat : Cat) (n : Nat) (L : List Answered) : Prop :=
  ∀ p ∈ L.zipIdx n, subsetOf p.1.1.extended cat (p.2 + 1) p.1.1.base p.1.1.pkey = .done p.1.2

theorem run_from {cat : Cat} (hok : Cat.Ok cat) (hcl : Cat.Closed cat) (qs : List Request)
    (hq : ∀ q ∈ qs, q.base ∈ cat.tables) (L : List Answered) :
    ∃ L', qs.foldlM (Subsetter.subset cat) (final L) = some (final (L ++ L')) ∧ L'.map (·.1) = qs ∧
      Done cat L.length L' := by
  induction qs generalizing L with
  | nil => exact ⟨[], by simp, rfl, by simp [Done]⟩
  | cons q qs ih =>
    have hb := hq q (by simp)
    have e : (if q.extended then extendedSubset else plainSubset) cat ((final L).results.length + 1) q.base q.pkey =
        subsetOf q.extended cat (L.length + 1) q.base q.pkey := by
      unfold subsetOf
      simp only [final, List.length_map]
      cases q.extended <;> rfl
    cases hst : subsetOf q.extended cat (L.length + 1) q.base q.pkey with
    | timeout => exact absurd hst (subset_terminates _ hok hb)
    | panic => exact absurd hst (subset_no_panic _ hok hcl hb)
    | done st =>
      obtain ⟨L', h1, h2, h3⟩ := ih (fun x hx => hq x (by simp [hx])) (L ++ [(q, st)])
      refine ⟨(q, st) :: L', ?_, by simp [h2], ?_⟩
      · rw [List.foldlM_cons]
        have : Subsetter.subset cat (final L) q = some (final (L ++ [(q, st)])) := by
          unfold Subsetter.subset
          rw [e, hst]
          dsimp only
          rw [final_add]
        rw [this]
        simpa using h1
      · intro p hp
        rw [List.zipIdx_cons] at hp
        rcases List.mem_cons.1 hp with rfl | hp
        · exact hst
        · refine h3 p ?_
          rw [List.length_append]
          exact hp

theorem run_eq {cat : Cat} (hok : Cat.Ok cat) (hcl : Cat.Closed cat) (qs : List Request)
    (hq : ∀ q ∈ qs, q.base ∈ cat.tables) :
    ∃ L, Subsetter.run cat qs = some (final L) ∧ L.map (·.1) = qs ∧ Done cat 0 L :=
  run_from hok hcl qs hq []

/-! ## Names -/

/-- A request for rows of a table with this primary key. -/
structure RequestOk (d : Dialect) (cat : Cat) (q : Request) : Prop where
  base : IsBase cat q.base q.pkey
  key : q.pkey ≠ []
  plain : ∀ c ∈ q.pkey, PlainName d c
  some : q.records ≠ []
  records : ∀ r ∈ q.records, r.length = q.pkey.length ∧ ∀ f ∈ r, FieldOk d f

/-- A table of the catalog. -/
def Known (cat : Cat) (t : TableID) : Prop := ∃ u ∈ cat.tables, u.id = t

section
variable {d : Dialect} {same : Str → Str → Bool} {cat : Cat} (hs : Compares same) (hok : Cat.Ok cat)
  (hcl : Cat.Closed cat) (hn : Names d same cat)
include hs hok hcl hn

omit hs hcl hn in
theorem known_table {f : Fkey} (hf : f ∈ cat.fkeys) : Known cat f.table := by
  obtain ⟨u, hu, hfu⟩ := (mem_fkeys cat f).1 hf
  exact ⟨u, hu, (hok.owner u hu f hfu).symm⟩

omit hok hcl in
theorem known_ne {t : TableID} (h : Known cat t) (n : Nat) : t ≠ resultName n := by
  obtain ⟨u, hu, rfl⟩ := h
  exact free_ne hs (hn.free u hu) n

theorem noClash {base : TableID} (hb : Known cat base) (n : Nat) : NoClash cat base n :=
  ⟨known_ne hs hn hb n, fun f hf => known_ne hs hn (known_table hok hf) n, fun f hf => known_ne hs hn (hcl f hf) n⟩

omit hs hn in
theorem chain_known {n base pkey ext t ts fs} (hb : Known cat base) (h : Chain cat n base pkey ext t ts fs) :
    ∀ x ∈ ts, Known cat x := by
  induction h with
  | base => simpa using hb
  | fwd f ts fs _ hf _ ih =>
    intro x hx
    rcases List.mem_append.1 hx with hx | hx
    · exact ih x hx
    · rw [List.mem_singleton.1 hx]; exact hcl f hf
  | back f ts fs _ _ hf _ ih =>
    intro x hx
    rcases List.mem_append.1 hx with hx | hx
    · exact ih x hx
    · rw [List.mem_singleton.1 hx]; exact known_table hok hf

omit hs hok hcl hn in
theorem zip_ne {a b : List Str} (h : a.length = b.length) (ha : a ≠ []) : a.zip b ≠ [] := by
  cases a with
  | nil => exact absurd rfl ha
  | cons x a => cases b with
    | nil => cases h
    | cons y b => simp

omit hs hcl in
theorem written_on {n base pkey ext t ts fs ss} (hk : pkey ≠ []) (hp : ∀ c ∈ pkey, PlainName d c)
    (h : Written cat n base pkey ext t ts fs ss) :
    ∀ s ∈ ss, s.on ≠ [] ∧ ∀ p ∈ s.on, PlainName d p.1 ∧ PlainName d p.2 := by
  have hz : ∀ (a b : List Str), (∀ c ∈ a, PlainName d c) → (∀ c ∈ b, PlainName d c) →
      ∀ p ∈ a.zip b, PlainName d p.1 ∧ PlainName d p.2 := fun a b ha hb p hp =>
    ⟨ha _ (List.of_mem_zip hp).1, hb _ (List.of_mem_zip hp).2⟩
  induction h with
  | base =>
    intro s hs
    rw [List.mem_singleton.1 hs]
    exact ⟨zip_ne rfl hk, hz _ _ hp hp⟩
  | fwd f ts fs ss _ hf _ ih =>
    intro s hs
    have hc := hn.columns f hf
    rcases List.mem_cons.1 hs with rfl | hs
    · exact ⟨zip_ne (hok.columns f hf) hc.1, hz _ _ (fun c h => hc.2 c (by simp [h])) fun c h => hc.2 c (by simp [h])⟩
    · exact ih s hs
  | back f ts fs ss _ _ hf _ ih =>
    intro s hs
    have hc := hn.columns f hf
    rcases List.mem_cons.1 hs with rfl | hs
    · refine ⟨zip_ne (hok.columns f hf).symm ?_, hz _ _ (fun c h => hc.2 c (by simp [h])) fun c h => hc.2 c (by simp [h])⟩
      intro e
      have := hok.columns f hf
      rw [e] at this
      exact hc.1 (List.eq_nil_of_length_eq_zero this)
    · exact ih s hs

omit hs hok hcl hn in
theorem validFrom_nodup {seen : List TableID} {ss : List Step} (h : ValidFrom seen ss) :
    (∀ s ∈ ss, s.table ∉ seen) ∧ (ss.map (·.table)).Nodup := by
  induction ss generalizing seen with
  | nil => simp
  | cons s ss ih =>
    obtain ⟨h1, _, h3⟩ := h
    obtain ⟨i1, i2⟩ := ih h3
    refine ⟨?_, ?_⟩
    · intro x hx
      rcases List.mem_cons.1 hx with rfl | hx
      · exact h1
      · exact fun hm => i1 x hx (by simp [hm])
    · rw [List.map_cons, List.nodup_cons]
      refine ⟨?_, i2⟩
      intro hm
      obtain ⟨x, hx, e⟩ := List.mem_map.1 hm
      exact i1 x hx (by simp [e])

/-- What is written for a join. -/
structure Good (d : Dialect) (same : Str → Str → Bool) (cat : Cat) (n : Nat) (t : TableID) (ss : List Step) : Prop where
  known : Known cat t
  valid : ValidFrom [t] ss
  distinct : Distinct same (t :: ss.map (·.table))
  tables : ∀ s ∈ ss, (Known cat s.table ∨ s.table = resultName n) ∧ Known cat s.other
  on : ∀ s ∈ ss, s.on ≠ [] ∧ ∀ p ∈ s.on, PlainName d p.1 ∧ PlainName d p.2

theorem good_join {q : Request} (hq : RequestOk d cat q) {n : Nat} {st : St}
    (hst : subsetOf q.extended cat n q.base q.pkey = .done st) {t : TableID} {j : Join}
    (hj : j ∈ st.joins.get t) : ∃ ss, toSteps j = some (t, ss) ∧ Good d same cat n t ss := by
  have hb : Known cat q.base.id := ⟨_, hq.base.mem, rfl⟩
  have hc := noClash hs hok hcl hn hb n
  have hi := subsetOf_inv hok hq.base.mem hst
  have hch := hi.chain t j hj
  obtain ⟨ss, h1, h2⟩ := hch.written hok hc
  have hk := chain_known hok hcl hb hch
  have hv : ValidFrom [t] ss := by
    refine h2.valid hc [t] (by simp) (by simp) ?_
    simp only [List.mem_singleton]
    intro he
    exact hch.tables_ne hc (he ▸ hch.mem)
  have htab : ∀ s ∈ ss, (Known cat s.table ∨ s.table = resultName n) ∧ Known cat s.other := fun s hs' =>
    ⟨(h2.steps_mem s hs').1.imp_left (hk _), hk _ (h2.steps_mem s hs').2⟩
  have hnd := validFrom_nodup hv
  have hall : ∀ i ∈ t :: ss.map (·.table), Known cat i ∨ i = resultName n := by
    intro i hi
    rcases List.mem_cons.1 hi with rfl | hi
    · exact .inl (hk _ hch.mem)
    · obtain ⟨s, hs', rfl⟩ := List.mem_map.1 hi
      exact (htab s hs').1
  refine ⟨ss, by simp [toSteps, hch.last, h1], hk t hch.mem, hv, ⟨?_, ?_⟩, htab, written_on hok hn hq.key hq.plain h2⟩
  · rw [List.nodup_cons]
    refine ⟨?_, hnd.2⟩
    intro hm
    obtain ⟨s, hs', e⟩ := List.mem_map.1 hm
    exact hnd.1 s hs' (by simp [e])
  · intro i hi k hk' hne
    rcases hall i hi with ⟨u, hu, rfl⟩ | rfl
    · rcases hall k hk' with ⟨v, hv', rfl⟩ | rfl
      · exact hn.apart u hu v hv' hne
      · exact (free_apart hs (hn.free u hu) n).1
    · rcases hall k hk' with ⟨v, hv', rfl⟩ | rfl
      · exact (free_apart hs (hn.free v hv') n).2
      · exact absurd rfl hne

end

end SelectSpec
