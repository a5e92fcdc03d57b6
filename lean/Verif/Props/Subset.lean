import Verif.Spec.Subset

/-!
# Subset dumps: C48, C49
-/

namespace Sqddl.Subset
open Go SubsetSpec

/-! ## The catalog -/

theorem mem_fkeys (cat : Cat) (f : Fkey) : f ∈ cat.fkeys ↔ ∃ t ∈ cat.tables, f ∈ t.fkeys := by
  simp [Cat.fkeys]

theorem lookup_some {cat : Cat} {x : TableID} {t : Table} (h : cat.lookup x = some t) :
    t ∈ cat.tables ∧ t.id = x := by
  have h1 := List.find?_some h
  exact ⟨List.mem_of_find?_eq_some h, by simpa using h1⟩

theorem eq_of_id {l : List Table} (h : (l.map Table.id).Nodup) {t u : Table} (ht : t ∈ l) (hu : u ∈ l)
    (he : t.id = u.id) : t = u := by
  induction l with
  | nil => simp at ht
  | cons a l ih =>
    simp only [List.map_cons, List.nodup_cons, List.mem_map, not_exists, not_and] at h
    rcases List.mem_cons.1 ht with h1 | h1 <;> rcases List.mem_cons.1 hu with h2 | h2
    · rw [h1, h2]
    · exact absurd (h1 ▸ he.symm) (h.1 u h2)
    · exact absurd (h2 ▸ he) (h.1 t h1)
    · exact ih h.2 h1 h2

theorem lookup_mem {cat : Cat} (hok : Cat.Ok cat) {t : Table} (ht : t ∈ cat.tables) :
    cat.lookup t.id = some t := by
  cases h : cat.lookup t.id with
  | none =>
    have := List.find?_eq_none.1 h t ht
    simp at this
  | some u =>
    have := lookup_some h
    rw [eq_of_id hok.nodup this.1 ht this.2]

/-- The foreign keys pushed for a table are those of the table. -/
theorem pushed_forward {cat : Cat} (hok : Cat.Ok cat) {f : Fkey} {more : List Fkey}
    (h : pushed cat false f = some more) (g : Fkey) :
    g ∈ more ↔ g ∈ cat.fkeys ∧ g.table = f.refTable := by
  simp only [pushed, Bool.false_eq_true, if_false, Option.map_eq_some_iff] at h
  obtain ⟨t, ht, rfl⟩ := h
  obtain ⟨h1, h2⟩ := lookup_some ht
  constructor
  · intro hg
    exact ⟨(mem_fkeys cat g).2 ⟨t, h1, hg⟩, (hok.owner t h1 g hg).trans h2⟩
  · rintro ⟨hg, he⟩
    obtain ⟨u, hu, hgu⟩ := (mem_fkeys cat g).1 hg
    have : u = t := eq_of_id hok.nodup hu h1 (((hok.owner u hu g hgu).symm.trans he).trans h2.symm)
    exact this ▸ hgu

theorem pushed_back {cat : Cat} {f : Fkey} {more : List Fkey}
    (h : pushed cat true f = some more) (g : Fkey) :
    g ∈ more ↔ g ∈ cat.fkeys ∧ g.refTable = f.table := by
  simp only [pushed, if_true, Option.some.injEq] at h
  subst h
  simp [Cat.referencedBy]

theorem fkeys_length_le {l : List Table} {t : Table} (h : t ∈ l) :
    t.fkeys.length ≤ (l.flatMap Table.fkeys).length := by
  induction l with
  | nil => simp at h
  | cons a l ih =>
    rw [List.flatMap_cons, List.length_append]
    rcases List.mem_cons.1 h with rfl | h
    · omega
    · have := ih h; omega

/-- What is pushed are foreign keys of the catalog, at most all of them. -/
theorem pushed_sub {cat : Cat} {back : Bool} {f : Fkey} {more : List Fkey}
    (h : pushed cat back f = some more) :
    (∀ g ∈ more, g ∈ cat.fkeys) ∧ more.length ≤ cat.fkeys.length := by
  cases back with
  | true =>
    refine ⟨fun g hg => ((pushed_back h g).1 hg).1, ?_⟩
    simp only [pushed, if_true, Option.some.injEq] at h
    subst h
    exact List.length_filter_le _ _
  | false =>
    simp only [pushed, Bool.false_eq_true, if_false, Option.map_eq_some_iff] at h
    obtain ⟨t, ht, rfl⟩ := h
    obtain ⟨h1, h2⟩ := lookup_some ht
    exact ⟨fun g hg => (mem_fkeys cat g).2 ⟨t, h1, hg⟩, fkeys_length_le h1⟩

/-! ## Termination -/

/-- The foreign keys that have not been visited. -/
def unvisited (cat : Cat) (v : List Fkey) : Nat := (cat.fkeys.filter fun g => !v.contains g).length

theorem unvisited_le (cat : Cat) (v : List Fkey) : unvisited cat v ≤ cat.fkeys.length :=
  List.length_filter_le _ _

theorem filter_lt {l v : List Fkey} {f : Fkey} (hf : f ∈ l) (hv : f ∉ v) :
    (l.filter fun g => !(f :: v).contains g).length < (l.filter fun g => !v.contains g).length := by
  induction l with
  | nil => simp at hf
  | cons a l ih =>
    have hle : ∀ m : List Fkey, (m.filter fun g => !(f :: v).contains g).length ≤
        (m.filter fun g => !v.contains g).length := by
      intro m
      induction m with
      | nil => simp
      | cons b m ih =>
        simp only [List.filter_cons]
        by_cases hb : b ∈ v
        · simp [hb]
          simpa using ih
        · by_cases hbf : b = f
          · simp [hbf]
            subst hbf
            simp [hb]
            have := ih
            simp at this
            omega
          · simp [hb, hbf]
            simpa using ih
    by_cases ha : a = f
    · subst ha
      have := hle l
      simp [hv] at this ⊢
      omega
    · have hfl : f ∈ l := by
        rcases List.mem_cons.1 hf with h | h
        · exact absurd h.symm ha
        · exact h
      have := ih hfl
      simp only [List.filter_cons]
      by_cases hb : a ∈ v
      · simp [hb, ha] at this ⊢; exact this
      · simp [hb, ha] at this ⊢; exact this

theorem unvisited_lt (cat : Cat) {v : List Fkey} {f : Fkey} (hf : f ∈ cat.fkeys) (hv : f ∉ v) :
    unvisited cat (f :: v) < unvisited cat v := filter_lt hf hv

theorem loop_no_timeout (cat : Cat) (back : Bool) (n : Nat) (st : St)
    (hs : ∀ f ∈ st.stack, f ∈ cat.fkeys)
    (hn : st.stack.length + unvisited cat st.visited * (cat.fkeys.length + 1) ≤ n) :
    loop cat back n st ≠ .timeout := by
  induction n generalizing st with
  | zero =>
    have : st.stack = [] := List.length_eq_zero_iff.1 (by omega)
    rw [loop, if_pos this]
    simp
  | succ n ih =>
    rcases st with ⟨stack, v, js⟩
    cases stack with
    | nil => simp [loop]
    | cons f rest =>
      simp only [loop]
      simp only [List.length_cons] at hn
      split
      · exact ih _ (fun g hg => hs g (List.mem_cons_of_mem _ hg)) (by simp only; omega)
      · rename_i hv
        cases hp : pushed cat back f with
        | none => simp
        | some more =>
          obtain ⟨h1, h2⟩ := pushed_sub hp
          have h3 := unvisited_lt cat (hs f (by simp)) hv
          refine ih _ ?_ ?_
          · intro g hg
            simp only [visit, List.mem_append, List.mem_reverse] at hg
            rcases hg with hg | hg
            · exact h1 g hg
            · exact hs g (List.mem_cons_of_mem _ hg)
          · simp only [visit, List.length_append, List.length_reverse]
            have h4 : (unvisited cat (f :: v) + 1) * (cat.fkeys.length + 1) ≤
                unvisited cat v * (cat.fkeys.length + 1) := Nat.mul_le_mul_right _ h3
            rw [Nat.add_mul, Nat.one_mul] at h4
            omega

/-- The loops end, whatever the foreign keys are. -/
theorem loop_terminates (cat : Cat) (back : Bool) (st : St) (hs : ∀ f ∈ st.stack, f ∈ cat.fkeys) :
    loop cat back (rounds cat st) st ≠ .timeout := by
  apply loop_no_timeout cat back _ st hs
  unfold rounds
  have := Nat.mul_le_mul_right (cat.fkeys.length + 1) (unvisited_le cat st.visited)
  omega

/-! ## Invariants -/

/-- A property that every round keeps holds at the end, and then there is nothing left to visit. -/
theorem loop_invariant (cat : Cat) (back : Bool) (P : St → Prop)
    (hpop : ∀ f rest v js, P ⟨f :: rest, v, js⟩ → f ∈ v → P ⟨rest, v, js⟩)
    (hvisit : ∀ f rest more v js, P ⟨f :: rest, v, js⟩ → f ∉ v → pushed cat back f = some more →
      P (visit back f more rest ⟨f :: rest, v, js⟩))
    (n : Nat) (st st' : St) (h0 : P st) (h : loop cat back n st = .done st') :
    P st' ∧ st'.stack = [] := by
  induction n generalizing st with
  | zero =>
    rw [loop] at h
    split at h
    · rename_i hs
      cases h
      exact ⟨h0, hs⟩
    · cases h
  | succ n ih =>
    rcases st with ⟨stack, v, js⟩
    cases stack with
    | nil =>
      simp only [loop, Out.done.injEq] at h
      subst h
      exact ⟨h0, rfl⟩
    | cons f rest =>
      simp only [loop] at h
      split at h
      · rename_i hv
        exact ih _ (hpop f rest v js h0 hv) h
      · rename_i hv
        cases hp : pushed cat back f with
        | none => rw [hp] at h; simp at h
        | some more =>
          rw [hp] at h
          exact ih _ (hvisit f rest more v js h0 hv hp) h

/-- A loop crashes only at a foreign key whose table is not in the catalog. -/
theorem loop_no_panic (cat : Cat) (back : Bool) (hp : ∀ f ∈ cat.fkeys, (pushed cat back f).isSome)
    (n : Nat) (st : St) (hs : ∀ f ∈ st.stack, f ∈ cat.fkeys) : loop cat back n st ≠ .panic := by
  induction n generalizing st with
  | zero => rw [loop]; split <;> simp
  | succ n ih =>
    rcases st with ⟨stack, v, js⟩
    cases stack with
    | nil => simp [loop]
    | cons f rest =>
      simp only [loop]
      split
      · exact ih _ fun g hg => hs g (List.mem_cons_of_mem _ hg)
      · obtain ⟨more, hm⟩ := Option.isSome_iff_exists.1 (hp f (hs f (by simp)))
        rw [hm]
        refine ih _ ?_
        intro g hg
        simp only [visit, List.mem_append, List.mem_reverse] at hg
        rcases hg with hg | hg
        · exact (pushed_sub hm).1 g hg
        · exact hs g (List.mem_cons_of_mem _ hg)

/-! ## Chains -/

section
variable (cat : Cat) (n : Nat) (base : TableID) (pkey : List Str) (ext : Bool)

/-- The joins that the loops build: from the base table along foreign keys (with `ext` also against
their direction), never to a table that is already in the chain. -/
inductive Chain : TableID → List TableID → List Fkey → Prop
  | base : Chain base [base] [baseFkey n base pkey]
  | fwd (f : Fkey) (ts fs) : Chain f.table ts fs → f ∈ cat.fkeys → f.refTable ∉ ts →
      Chain f.refTable (ts ++ [f.refTable]) (fs ++ [f])
  | back (f : Fkey) (ts fs) : ext = true → Chain f.refTable ts fs → f ∈ cat.fkeys → f.table ∉ ts →
      Chain f.table (ts ++ [f.table]) (fs ++ [f])

variable {cat n base pkey ext}

theorem Chain.last {t ts fs} (h : Chain cat n base pkey ext t ts fs) : ts.getLast? = some t := by
  cases h <;> simp

theorem Chain.mem {t ts fs} (h : Chain cat n base pkey ext t ts fs) : t ∈ ts :=
  List.mem_of_getLast? h.last

theorem Chain.nodup {t ts fs} (h : Chain cat n base pkey ext t ts fs) : ts.Nodup := by
  have hadd : ∀ (l : List TableID) x, l.Nodup → x ∉ l → (l ++ [x]).Nodup := by
    intro l x h1 h2
    refine List.nodup_append.2 ⟨h1, by simp, ?_⟩
    intro a ha b hb
    rw [List.mem_singleton.1 hb]
    exact fun e => h2 (e ▸ ha)
  induction h with
  | base => simp
  | fwd f ts fs _ _ hn ih => exact hadd _ _ ih hn
  | back f ts fs _ _ _ hn ih => exact hadd _ _ ih hn

theorem Chain.mem_base {t ts fs} (h : Chain cat n base pkey ext t ts fs) : base ∈ ts := by
  induction h with
  | base => simp
  | fwd f ts fs _ _ _ ih => exact List.mem_append_left _ ih
  | back f ts fs _ _ _ _ ih => exact List.mem_append_left _ ih

theorem Chain.tables_ne {t ts fs} (hc : NoClash cat base n) (h : Chain cat n base pkey ext t ts fs) :
    resultName n ∉ ts := by
  induction h with
  | base => simpa using hc.base.symm
  | fwd f ts fs _ hf _ ih => simpa using ⟨ih, (hc.refTable f hf).symm⟩
  | back f ts fs _ _ hf _ ih => simpa using ⟨ih, (hc.table f hf).symm⟩

/-- What `toSQL` writes for a chain: first the base table and the result of the subset query, then one
table after the other. -/
inductive Written (cat : Cat) (n : Nat) (base : TableID) (pkey : List Str) (ext : Bool) :
    TableID → List TableID → List Fkey → List Step → Prop
  | base : Written cat n base pkey ext base [base] [baseFkey n base pkey]
      [⟨resultName n, base, pkey.zip pkey⟩]
  | fwd (f : Fkey) (ts fs ss) : Written cat n base pkey ext f.table ts fs ss → f ∈ cat.fkeys →
      f.refTable ∉ ts →
      Written cat n base pkey ext f.refTable (ts ++ [f.refTable]) (fs ++ [f])
        (⟨f.table, f.refTable, f.columns.zip f.refColumns⟩ :: ss)
  | back (f : Fkey) (ts fs ss) : ext = true → Written cat n base pkey ext f.refTable ts fs ss →
      f ∈ cat.fkeys → f.table ∉ ts →
      Written cat n base pkey ext f.table (ts ++ [f.table]) (fs ++ [f])
        (⟨f.refTable, f.table, f.refColumns.zip f.columns⟩ :: ss)

theorem Written.chain {t ts fs ss} (h : Written cat n base pkey ext t ts fs ss) :
    Chain cat n base pkey ext t ts fs := by
  induction h with
  | base => exact .base
  | fwd f ts fs ss _ hf hn ih => exact .fwd f ts fs ih hf hn
  | back f ts fs ss he _ hf hn ih => exact .back f ts fs he ih hf hn

theorem base_stepsFrom {base : TableID} {n : Nat} (pkey : List Str) (h : base ≠ resultName n) :
    stepsFrom base [baseFkey n base pkey] = some [⟨resultName n, base, pkey.zip pkey⟩] := by
  have h1 : base ≠ (baseFkey n base pkey).table := h
  simp only [stepsFrom, if_neg h1]
  rw [if_pos (show base = (baseFkey n base pkey).refTable from rfl), if_neg (by simp [baseFkey])]
  rfl

theorem base_steps {base : TableID} {n : Nat} (pkey : List Str) (h : base ≠ resultName n) :
    toSteps ⟨[base], [baseFkey n base pkey]⟩ = some (base, [⟨resultName n, base, pkey.zip pkey⟩]) := by
  simp [toSteps, base_stepsFrom pkey h]

theorem Chain.written (hok : Cat.Ok cat) (hc : NoClash cat base n) {t ts fs}
    (h : Chain cat n base pkey ext t ts fs) :
    ∃ ss, stepsFrom t fs.reverse = some ss ∧ Written cat n base pkey ext t ts fs ss := by
  induction h with
  | base =>
    refine ⟨_, ?_, .base⟩
    exact base_stepsFrom pkey hc.base
  | fwd f ts fs hch hf hn ih =>
    obtain ⟨ss, h1, h2⟩ := ih
    refine ⟨_, ?_, .fwd f ts fs ss h2 hf hn⟩
    have hne : f.refTable ≠ f.table := fun he => hn (he ▸ hch.mem)
    rw [List.reverse_append, List.reverse_cons, List.reverse_nil, List.nil_append, List.cons_append,
      List.nil_append, stepsFrom, if_neg hne, if_pos rfl,
      if_neg (by rw [hok.columns f hf]; exact Nat.lt_irrefl _), h1]
    rfl
  | back f ts fs he hch hf hn ih =>
    obtain ⟨ss, h1, h2⟩ := ih
    refine ⟨_, ?_, .back f ts fs ss he h2 hf hn⟩
    rw [List.reverse_append, List.reverse_cons, List.reverse_nil, List.nil_append, List.cons_append,
      List.nil_append, stepsFrom, if_pos rfl,
      if_neg (by rw [hok.columns f hf]; exact Nat.lt_irrefl _), h1]
    rfl

theorem Written.steps_mem {t ts fs ss} (h : Written cat n base pkey ext t ts fs ss) :
    ∀ s ∈ ss, (s.table ∈ ts ∨ s.table = resultName n) ∧ s.other ∈ ts := by
  induction h with
  | base => simp
  | fwd f ts fs ss hw hf hn ih =>
    intro s hs
    rcases List.mem_cons.1 hs with rfl | hs
    · exact ⟨.inl (List.mem_append_left _ hw.chain.mem), by simp⟩
    · obtain ⟨h1, h2⟩ := ih s hs
      exact ⟨h1.imp_left (List.mem_append_left _), List.mem_append_left _ h2⟩
  | back f ts fs ss he hw hf hn ih =>
    intro s hs
    rcases List.mem_cons.1 hs with rfl | hs
    · exact ⟨.inl (List.mem_append_left _ hw.chain.mem), by simp⟩
    · obtain ⟨h1, h2⟩ := ih s hs
      exact ⟨h1.imp_left (List.mem_append_left _), List.mem_append_left _ h2⟩

theorem Written.valid (hc : NoClash cat base n) {t ts fs ss}
    (h : Written cat n base pkey ext t ts fs ss) (seen : List TableID) (h1 : t ∈ seen)
    (h2 : ∀ x ∈ ts, x ∈ seen → x = t) (h3 : resultName n ∉ seen) : ValidFrom seen ss := by
  induction h generalizing seen with
  | base => exact ⟨h3, h1, trivial⟩
  | fwd f ts fs ss hw hf hn ih =>
    have hne : f.table ∉ seen := fun hs =>
      hn (h2 f.table (List.mem_append_left _ hw.chain.mem) hs ▸ hw.chain.mem)
    refine ⟨hne, h1, ih _ (by simp) ?_ ?_⟩
    · intro x hx hs
      rcases List.mem_cons.1 hs with hs | hs
      · exact hs
      · exact absurd (h2 x (List.mem_append_left _ hx) hs ▸ hx) hn
    · simpa using ⟨(hc.table f hf).symm, h3⟩
  | back f ts fs ss he hw hf hn ih =>
    have hne : f.refTable ∉ seen := fun hs =>
      hn (h2 f.refTable (List.mem_append_left _ hw.chain.mem) hs ▸ hw.chain.mem)
    refine ⟨hne, h1, ih _ (by simp) ?_ ?_⟩
    · intro x hx hs
      rcases List.mem_cons.1 hs with hs | hs
      · exact hs
      · exact absurd (h2 x (List.mem_append_left _ hx) hs ▸ hx) hn
    · simpa using ⟨(hc.refTable f hf).symm, h3⟩

end

/-! ## The joins are chains -/

/-- The invariant of both loops. -/
structure Inv (cat : Cat) (n : Nat) (base : TableID) (pkey : List Str) (ext back : Bool) (st : St) :
    Prop where
  stack : ∀ f ∈ st.stack, f ∈ cat.fkeys ∧ src back f ∈ st.joins.keys
  chain : ∀ t, ∀ j ∈ st.joins.get t, Chain cat n base pkey ext t j.tables j.fkeys
  keys : ∀ t, ∀ j ∈ st.joins.get t, ∀ x ∈ j.tables, x ∈ st.joins.keys
  filled : ∀ t ∈ st.joins.keys, st.joins.get t ≠ []
  base : ⟨[base], [baseFkey n base pkey]⟩ ∈ st.joins.get base

theorem mem_extend {t : TableID} {f : Fkey} {js : List Join} {j : Join} :
    j ∈ extend t f js ↔ ∃ i ∈ js, t ∉ i.tables ∧ j = ⟨i.tables ++ [t], i.fkeys ++ [f]⟩ := by
  simp only [extend, List.mem_map, List.mem_filter]
  constructor
  · rintro ⟨i, ⟨h1, h2⟩, rfl⟩
    exact ⟨i, h1, by simpa using h2, rfl⟩
  · rintro ⟨i, h1, h2, rfl⟩
    exact ⟨i, ⟨h1, by simpa using h2⟩, rfl⟩

theorem mem_add_get {m : Joins} {t x : TableID} {js : List Join} {j : Join} :
    j ∈ (m.add t js).get x ↔ j ∈ m.get x ∨ (x = t ∧ j ∈ js) := by
  simp only [Joins.add]
  split
  · rename_i h; simp [h]
  · rename_i h; simp [h]

theorem mem_add_keys {m : Joins} {t x : TableID} {js : List Join} :
    x ∈ (m.add t js).keys ↔ x ∈ m.keys ∨ x = t := by
  simp only [Joins.add]
  split
  · constructor
    · exact .inl
    · rintro (h | rfl) <;> assumption
  · simp

theorem Inv.visit {cat : Cat} {n base pkey ext back} (hok : Cat.Ok cat) (hb : back = true → ext = true)
    {f : Fkey} {rest more : List Fkey} {v : List Fkey} {js : Joins}
    (h : Inv cat n base pkey ext back ⟨f :: rest, v, js⟩) (hp : pushed cat back f = some more) :
    Inv cat n base pkey ext back (visit back f more rest ⟨f :: rest, v, js⟩) := by
  obtain ⟨hf, hsrc⟩ := h.stack f (by simp)
  refine ⟨?_, ?_, ?_, ?_, ?_⟩
  · intro g hg
    simp only [Subset.visit, List.mem_append, List.mem_reverse] at hg ⊢
    rw [mem_add_keys]
    rcases hg with hg | hg
    · refine ⟨(pushed_sub hp).1 g hg, .inr ?_⟩
      cases back with
      | true => simpa [src, dst] using ((pushed_back hp g).1 hg).2
      | false => simpa [src, dst] using ((pushed_forward hok hp g).1 hg).2
    · obtain ⟨h1, h2⟩ := h.stack g (List.mem_cons_of_mem _ hg)
      exact ⟨h1, .inl h2⟩
  · intro t j hj
    simp only [Subset.visit] at hj
    rw [mem_add_get] at hj
    rcases hj with hj | ⟨rfl, hj⟩
    · exact h.chain t j hj
    · obtain ⟨i, hi, hn, rfl⟩ := mem_extend.1 hj
      have := h.chain _ i hi
      cases back with
      | true => exact .back f _ _ (hb rfl) this hf hn
      | false => exact .fwd f _ _ this hf hn
  · intro t j hj x hx
    simp only [Subset.visit] at hj ⊢
    rw [mem_add_get] at hj
    rw [mem_add_keys]
    rcases hj with hj | ⟨rfl, hj⟩
    · exact .inl (h.keys t j hj x hx)
    · obtain ⟨i, hi, hn, rfl⟩ := mem_extend.1 hj
      rcases List.mem_append.1 hx with hx | hx
      · exact .inl (h.keys _ i hi x hx)
      · exact .inr (by simpa using hx)
  · intro t ht
    simp only [Subset.visit] at ht ⊢
    rw [mem_add_keys] at ht
    have hold : t ∈ js.keys → (js.add (dst back f) (extend (dst back f) f (js.get (src back f)))).get t ≠ [] := by
      intro ht he
      have hne := h.filled t ht
      obtain ⟨j, hj⟩ := List.exists_mem_of_ne_nil _ hne
      have : j ∈ (js.add (dst back f) (extend (dst back f) f (js.get (src back f)))).get t :=
        mem_add_get.2 (.inl hj)
      rw [he] at this
      simp at this
    rcases ht with ht | rfl
    · exact hold ht
    · obtain ⟨i, hi⟩ := List.exists_mem_of_ne_nil _ (h.filled _ hsrc)
      by_cases hd : dst back f ∈ i.tables
      · exact hold (h.keys _ i hi _ hd)
      · intro he
        have : (⟨i.tables ++ [dst back f], i.fkeys ++ [f]⟩ : Join) ∈
            (js.add (dst back f) (extend (dst back f) f (js.get (src back f)))).get (dst back f) :=
          mem_add_get.2 (.inr ⟨rfl, mem_extend.2 ⟨i, hi, hd, rfl⟩⟩)
        rw [he] at this
        simp at this
  · simp only [Subset.visit]
    exact mem_add_get.2 (.inl h.base)

theorem Inv.loop {cat : Cat} {n base pkey ext back} (hok : Cat.Ok cat) (hb : back = true → ext = true)
    {k : Nat} {st st' : St} (h : Inv cat n base pkey ext back st)
    (hl : loop cat back k st = .done st') : Inv cat n base pkey ext back st' := by
  refine (loop_invariant cat back (Inv cat n base pkey ext back) ?_ ?_ k st st' h hl).1
  · intro f rest v js h _
    exact ⟨fun g hg => h.stack g (List.mem_cons_of_mem _ hg), h.chain, h.keys, h.filled, h.base⟩
  · intro f rest more v js h _ hp
    exact h.visit hok hb hp

theorem Inv.initial (cat : Cat) (n : Nat) (base : TableID) (pkey : List Str) (ext back : Bool)
    (stack : List Fkey) (hs : ∀ f ∈ stack, f ∈ cat.fkeys ∧ src back f = base) :
    Inv cat n base pkey ext back ⟨stack, [], initial n base pkey⟩ := by
  refine ⟨?_, ?_, ?_, ?_, ?_⟩
  · intro f hf
    obtain ⟨h1, h2⟩ := hs f hf
    exact ⟨h1, by simp [Subset.initial, h2]⟩
  · intro t j hj
    simp only [Subset.initial] at hj
    split at hj
    · rename_i ht
      simp only [List.mem_singleton] at hj
      subst hj ht
      exact .base
    · simp at hj
  · intro t j hj
    simp only [Subset.initial] at hj ⊢
    split at hj
    · simp only [List.mem_singleton] at hj
      subst hj
      simp
    · simp at hj
  · intro t ht
    simp only [Subset.initial, List.mem_singleton] at ht ⊢
    simp [ht]
  · simp [Subset.initial]

/-! ## The two kinds of subsets -/

/-- What a call of `Subset` or `ExtendedSubset` (`ext`) starts from: a table with its primary key. -/
structure IsBase (cat : Cat) (base : Table) (pkey : List Str) : Prop where
  mem : base ∈ cat.tables
  pkey : base.pkey = some pkey

/-- The joins computed by `Subset` or `ExtendedSubset`. -/
def subsetOf (ext : Bool) (cat : Cat) (n : Nat) (base : Table) (pkey : List Str) : Out :=
  if ext then extendedSubset cat n base pkey else plainSubset cat n base pkey

theorem base_fkeys {cat : Cat} (hok : Cat.Ok cat) {base : Table} (hm : base ∈ cat.tables) :
    ∀ f ∈ base.fkeys.reverse, f ∈ cat.fkeys ∧ f.table = base.id := fun f hf =>
  ⟨(mem_fkeys cat f).2 ⟨base, hm, List.mem_reverse.1 hf⟩, hok.owner base hm f (List.mem_reverse.1 hf)⟩

theorem referencedBy_mem {cat : Cat} {t : TableID} :
    ∀ f ∈ (cat.referencedBy t).reverse, f ∈ cat.fkeys ∧ f.refTable = t := fun f hf => by
  simpa [Cat.referencedBy] using hf

theorem constraintsOf_aux (cat : Cat) (l : List TableID) (acc : Option (List Fkey)) :
    (∀ r, l.foldl (fun acc t =>
      acc.bind fun l => (cat.lookup t).map fun tbl => l ++ tbl.fkeys) acc = some r →
      ∃ a, acc = some a ∧ ∀ f ∈ r, f ∈ a ∨ ∃ t ∈ l, ∃ tbl, cat.lookup t = some tbl ∧ f ∈ tbl.fkeys) ∧
    (acc.isSome → (∀ t ∈ l, (cat.lookup t).isSome) → (l.foldl (fun acc t =>
      acc.bind fun l => (cat.lookup t).map fun tbl => l ++ tbl.fkeys) acc).isSome) := by
  induction l generalizing acc with
  | nil =>
    refine ⟨fun r hr => ⟨r, hr, fun f hf => .inl hf⟩, fun h _ => h⟩
  | cons t l ih =>
    obtain ⟨h1, h2⟩ := ih (acc.bind fun l => (cat.lookup t).map fun tbl => l ++ tbl.fkeys)
    constructor
    · intro r hr
      obtain ⟨a, ha, hf⟩ := h1 r hr
      obtain ⟨b, hb, hc⟩ := Option.bind_eq_some_iff.1 ha
      obtain ⟨tbl, ht, rfl⟩ := Option.map_eq_some_iff.1 hc
      refine ⟨b, hb, fun f hfr => ?_⟩
      rcases hf f hfr with h | ⟨u, hu, tb, h3, h4⟩
      · rcases List.mem_append.1 h with h | h
        · exact .inl h
        · exact .inr ⟨t, by simp, tbl, ht, h⟩
      · exact .inr ⟨u, List.mem_cons_of_mem _ hu, tb, h3, h4⟩
    · intro ha hl
      refine h2 ?_ fun u hu => hl u (List.mem_cons_of_mem _ hu)
      obtain ⟨a, rfl⟩ := Option.isSome_iff_exists.1 ha
      obtain ⟨tbl, ht⟩ := Option.isSome_iff_exists.1 (hl t (by simp))
      simp [ht]

theorem mem_insertId {t u : TableID} {l : List TableID} : u ∈ insertId t l ↔ u = t ∨ u ∈ l := by
  induction l with
  | nil => simp [insertId]
  | cons a l ih =>
    simp only [insertId]
    split
    · simp
    · simp only [List.mem_cons, ih]
      constructor
      · rintro (h | h | h)
        · exact .inr (.inl h)
        · exact .inl h
        · exact .inr (.inr h)
      · rintro (h | h | h)
        · exact .inr (.inl h)
        · exact .inl h
        · exact .inr (.inr h)

theorem mem_sortIds {u : TableID} {l : List TableID} : u ∈ sortIds l ↔ u ∈ l := by
  induction l with
  | nil => simp [sortIds]
  | cons a l ih =>
    rw [sortIds, List.foldr_cons, mem_insertId, List.mem_cons, ← ih]
    rfl

theorem constraintsOf_some {cat : Cat} (hok : Cat.Ok cat) {keys : List TableID} {l : List Fkey}
    (h : constraintsOf cat keys = some l) : ∀ f ∈ l, f ∈ cat.fkeys ∧ f.table ∈ keys := by
  obtain ⟨a, ha, hf⟩ := (constraintsOf_aux cat _ _).1 l h
  cases ha
  intro f hfl
  rcases hf f hfl with h | ⟨t, ht, tbl, h1, h2⟩
  · simp at h
  · obtain ⟨h3, h4⟩ := lookup_some h1
    refine ⟨(mem_fkeys cat f).2 ⟨tbl, h3, h2⟩, ?_⟩
    rw [hok.owner tbl h3 f h2, h4]
    exact mem_sortIds.1 ht

theorem constraintsOf_isSome {cat : Cat} {keys : List TableID}
    (h : ∀ t ∈ keys, (cat.lookup t).isSome) : (constraintsOf cat keys).isSome :=
  (constraintsOf_aux cat _ _).2 rfl fun t ht => h t (mem_sortIds.1 ht)

/-- Every chain leads to a table of the catalog. -/
theorem Chain.known {cat : Cat} {n base pkey ext} (hok : Cat.Ok cat) (hcl : Cat.Closed cat)
    (hb : ∃ t ∈ cat.tables, t.id = base) {t ts fs} (h : Chain cat n base pkey ext t ts fs) :
    (cat.lookup t).isSome := by
  have key : ∃ u ∈ cat.tables, u.id = t := by
    cases h with
    | base => exact hb
    | fwd f ts fs _ hf _ => exact hcl f hf
    | back f ts fs _ _ hf _ =>
      obtain ⟨u, hu, hfu⟩ := (mem_fkeys cat f).1 hf
      exact ⟨u, hu, (hok.owner u hu f hfu).symm⟩
  obtain ⟨u, hu, rfl⟩ := key
  rw [lookup_mem hok hu]
  rfl

theorem extended_unfold (cat : Cat) (n : Nat) (base : Table) (pkey : List Str) :
    (∃ st, loop cat true (rounds cat ⟨(cat.referencedBy base.id).reverse, [], initial n base.id pkey⟩)
        ⟨(cat.referencedBy base.id).reverse, [], initial n base.id pkey⟩ = .done st ∧
      ((constraintsOf cat st.joins.keys = none ∧ extendedSubset cat n base pkey = .panic) ∨
       ∃ l, constraintsOf cat st.joins.keys = some l ∧
        extendedSubset cat n base pkey = loop cat false
          (rounds cat ⟨l.reverse, st.visited, st.joins⟩) ⟨l.reverse, st.visited, st.joins⟩)) := by
  have h1 := loop_terminates cat true ⟨(cat.referencedBy base.id).reverse, [], initial n base.id pkey⟩
    (fun f hf => (referencedBy_mem f hf).1)
  have h2 := loop_no_panic cat true (by simp [pushed])
    (rounds cat ⟨(cat.referencedBy base.id).reverse, [], initial n base.id pkey⟩)
    ⟨(cat.referencedBy base.id).reverse, [], initial n base.id pkey⟩
    (fun f hf => (referencedBy_mem f hf).1)
  unfold extendedSubset
  simp only
  cases hl : loop cat true (rounds cat ⟨(cat.referencedBy base.id).reverse, [], initial n base.id pkey⟩)
        ⟨(cat.referencedBy base.id).reverse, [], initial n base.id pkey⟩ with
  | panic => exact absurd hl h2
  | timeout => exact absurd hl h1
  | done st =>
    refine ⟨st, rfl, ?_⟩
    simp only
    cases hc : constraintsOf cat st.joins.keys with
    | none => exact .inl ⟨rfl, rfl⟩
    | some l => exact .inr ⟨l, rfl, rfl⟩

/-- The invariant holds when a subset has been computed. -/
theorem subsetOf_inv {cat : Cat} {n : Nat} {base : Table} {pkey : List Str} {ext : Bool} {st : St}
    (hok : Cat.Ok cat) (hb : base ∈ cat.tables)
    (h : subsetOf ext cat n base pkey = .done st) : Inv cat n base.id pkey ext false st := by
  cases ext with
  | false =>
    simp only [subsetOf, Bool.false_eq_true, if_false, plainSubset] at h
    exact (Inv.initial cat n base.id pkey false false _ (base_fkeys hok hb)).loop hok (by simp) h
  | true =>
    simp only [subsetOf, if_true] at h
    obtain ⟨st1, h1, h2⟩ := extended_unfold cat n base pkey
    have hi := (Inv.initial cat n base.id pkey true true _ referencedBy_mem).loop hok (by simp) h1
    rcases h2 with ⟨_, h2⟩ | ⟨l, hl, h2⟩
    · rw [h2] at h; cases h
    · rw [h2] at h
      have hi2 : Inv cat n base.id pkey true false ⟨l.reverse, st1.visited, st1.joins⟩ :=
        ⟨fun f hf => constraintsOf_some hok hl f (List.mem_reverse.1 hf), hi.chain, hi.keys, hi.filled,
          hi.base⟩
      exact hi2.loop hok (by simp) h

/-- C49: computing a subset terminates, for every set of foreign keys. -/
theorem subset_terminates {cat : Cat} {n : Nat} {base : Table} {pkey : List Str} (ext : Bool)
    (hok : Cat.Ok cat) (hb : base ∈ cat.tables) : subsetOf ext cat n base pkey ≠ .timeout := by
  cases ext with
  | false =>
    simp only [subsetOf, Bool.false_eq_true, if_false, plainSubset]
    exact loop_terminates cat false _ fun f hf => (base_fkeys hok hb f hf).1
  | true =>
    simp only [subsetOf, if_true]
    obtain ⟨st1, h1, h2⟩ := extended_unfold cat n base pkey
    rcases h2 with ⟨_, h2⟩ | ⟨l, hl, h2⟩
    · rw [h2]; simp
    · rw [h2]
      exact loop_terminates cat false _ fun f hf =>
        (constraintsOf_some hok hl f (List.mem_reverse.1 hf)).1

/-- C49: computing a subset does not crash, if all tables that foreign keys refer to are known. -/
theorem subset_no_panic {cat : Cat} {n : Nat} {base : Table} {pkey : List Str} (ext : Bool)
    (hok : Cat.Ok cat) (hcl : Cat.Closed cat) (hb : base ∈ cat.tables) :
    subsetOf ext cat n base pkey ≠ .panic := by
  have hp : ∀ f ∈ cat.fkeys, (pushed cat false f).isSome := by
    intro f hf
    obtain ⟨t, ht, he⟩ := hcl f hf
    simp only [pushed, Bool.false_eq_true, if_false, Option.isSome_map]
    rw [← he, lookup_mem hok ht]
    rfl
  cases ext with
  | false =>
    simp only [subsetOf, Bool.false_eq_true, if_false, plainSubset]
    exact loop_no_panic cat false hp _ _ fun f hf => (base_fkeys hok hb f hf).1
  | true =>
    simp only [subsetOf, if_true]
    obtain ⟨st1, h1, h2⟩ := extended_unfold cat n base pkey
    have hi := (Inv.initial cat n base.id pkey true true _ referencedBy_mem).loop hok (by simp) h1
    have hk : (constraintsOf cat st1.joins.keys).isSome := by
      refine constraintsOf_isSome fun t ht => ?_
      obtain ⟨j, hj⟩ := List.exists_mem_of_ne_nil _ (hi.filled t ht)
      exact (hi.chain t j hj).known hok hcl ⟨base, hb, rfl⟩
    rcases h2 with ⟨h3, h2⟩ | ⟨l, hl, h2⟩
    · rw [h3] at hk; cases hk
    · rw [h2]
      exact loop_no_panic cat false hp _ _ fun f hf =>
        (constraintsOf_some hok hl f (List.mem_reverse.1 hf)).1

/-- C49: the chains of joins are never broken.  Every table that was reached has a join, and the join
gives a valid `FROM` clause that begins with the table. -/
theorem subset_chains {cat : Cat} {n : Nat} {base : Table} {pkey : List Str} {ext : Bool} {st : St}
    (hok : Cat.Ok cat) (hb : base ∈ cat.tables) (hc : NoClash cat base.id n)
    (h : subsetOf ext cat n base pkey = .done st) :
    ∀ t ∈ st.joins.keys, st.joins.get t ≠ [] ∧
      ∀ j ∈ st.joins.get t, ∃ ss, toSteps j = some (t, ss) ∧ ValidFrom [t] ss := by
  have hi := subsetOf_inv hok hb h
  intro t ht
  refine ⟨hi.filled t ht, fun j hj => ?_⟩
  have hch := hi.chain t j hj
  obtain ⟨ss, h1, h2⟩ := hch.written hok hc
  refine ⟨ss, ?_, ?_⟩
  · simp [toSteps, hch.last, h1]
  · refine h2.valid hc [t] (by simp) (by simp) ?_
    simp only [List.mem_singleton]
    intro he
    exact hch.tables_ne hc (he ▸ hch.mem)

/-! ## What the joins select -/

theorem Agree.symm {on : List (Str × Str)} {r r' : Row} (h : Agree on r r') :
    Agree (on.map fun p => (p.2, p.1)) r' r := by
  intro p hp
  obtain ⟨q, hq, rfl⟩ := List.mem_map.1 hp
  obtain ⟨v, h1, h2⟩ := h q hq
  exact ⟨v, h2, h1⟩

theorem zip_self (l : List Str) : l.zip l = l.map fun c => (c, c) := by
  induction l with
  | nil => rfl
  | cons a l ih => simp [ih]

theorem SameKey.symm {pk : List Str} {r r' : Row} (h : SameKey pk r r') : SameKey pk r' r := by
  intro p hp
  obtain ⟨v, h1, h2⟩ := h p hp
  obtain ⟨c, hc, rfl⟩ := List.mem_map.1 hp
  exact ⟨v, h2, h1⟩

theorem SameKey.refl {db : Db} {t : TableID} {pk : List Str} (hk : IsKey db t pk) {r : Row}
    (hr : db t r) : SameKey pk r r := by
  intro p hp
  obtain ⟨c, hc, rfl⟩ := List.mem_map.1 hp
  obtain ⟨v, hv⟩ := Option.ne_none_iff_exists'.1 (hk.notNull r hr c hc)
  exact ⟨v, hv, hv⟩

theorem zip_swap (a b : List Str) : (a.zip b).map (fun p => (p.2, p.1)) = b.zip a := by
  induction a generalizing b with
  | nil => simp
  | cons x a ih => cases b with
    | nil => simp
    | cons y b => simp [ih]

theorem call_db_ne {c : Call} {db : Db} {t : TableID} {r : Row} (h : t ≠ resultName c.num) :
    c.db db t r ↔ db t r := by
  rw [Call.db, if_neg h]

theorem call_db_result {c : Call} {db : Db} {r : Row} :
    c.db db (resultName c.num) r ↔ c.result r := by
  rw [Call.db, if_pos rfl]

theorem selects_tail {db : Db} {x : TableID} {s : Step} {ss : List Step} {env : TableID → Row}
    (h : ∀ s' ∈ s :: ss, db s'.table (env s'.table) ∧ Agree s'.on (env s'.table) (env s'.other))
    (hx : s.table = x) : Selects db (x, ss) (env x) := by
  subst hx
  exact ⟨env, rfl, (h s (by simp)).1, fun s' hs => h s' (List.mem_cons_of_mem _ hs)⟩

theorem Written.needed {cat : Cat} {c : Call} {db : Db} (hc : NoClash cat c.base c.num) {t ts fs ss}
    (h : Written cat c.num c.base c.pkey false t ts fs ss) {r : Row}
    (hs : Selects (c.db db) (t, ss) r) : Needed cat db c.base c.pkey c.result t r := by
  induction h generalizing r with
  | base =>
    obtain ⟨env, rfl, h1, h2⟩ := hs
    obtain ⟨h3, h4⟩ := h2 _ (List.mem_singleton.2 rfl)
    refine .base _ (env (resultName c.num)) ((call_db_ne hc.base).1 h1) (call_db_result.1 h3) ?_
    rw [zip_self] at h4
    exact h4
  | fwd f ts fs ss hw hf hn ih =>
    obtain ⟨env, rfl, h1, h2⟩ := hs
    obtain ⟨h3, h4⟩ := h2 _ (List.mem_cons_self ..)
    exact .ref f (env f.table) _ (ih (selects_tail h2 rfl)) hf
      ((call_db_ne (hc.refTable f hf)).1 h1) h4
  | back f ts fs ss he hw hf hn ih => cases he

theorem Written.connected {cat : Cat} {c : Call} {db : Db} {ext : Bool} (hc : NoClash cat c.base c.num)
    {t ts fs ss} (h : Written cat c.num c.base c.pkey ext t ts fs ss) {r : Row}
    (hs : Selects (c.db db) (t, ss) r) : Connected cat db c.base c.pkey c.result t r := by
  induction h generalizing r with
  | base =>
    obtain ⟨env, rfl, h1, h2⟩ := hs
    obtain ⟨h3, h4⟩ := h2 _ (List.mem_singleton.2 rfl)
    refine .base _ (env (resultName c.num)) ((call_db_ne hc.base).1 h1) (call_db_result.1 h3) ?_
    rw [zip_self] at h4
    exact h4
  | fwd f ts fs ss hw hf hn ih =>
    obtain ⟨env, rfl, h1, h2⟩ := hs
    obtain ⟨h3, h4⟩ := h2 _ (List.mem_cons_self ..)
    exact .ref f (env f.table) _ (ih (selects_tail h2 rfl)) hf
      ((call_db_ne (hc.refTable f hf)).1 h1) h4
  | back f ts fs ss he hw hf hn ih =>
    obtain ⟨env, rfl, h1, h2⟩ := hs
    obtain ⟨h3, h4⟩ := h2 _ (List.mem_cons_self ..)
    refine .back f _ (env f.refTable) (ih (selects_tail h2 rfl)) hf
      ((call_db_ne (hc.table f hf)).1 h1) ?_
    have := Agree.symm h4
    rw [zip_swap] at this
    exact this

/-- The calls that made up a dump. -/
def IsCall (cat : Cat) (ext : Bool) (c : Call) : Prop :=
  ∃ base st, IsBase cat base c.pkey ∧ base.id = c.base ∧
    subsetOf ext cat c.num base c.pkey = .done st ∧ c.joins = st.joins.get

theorem dumped_written {cat : Cat} {ext : Bool} {db : Db} {calls : List Call} (hok : Cat.Ok cat)
    (hcalls : ∀ c ∈ calls, IsCall cat ext c ∧ NoClash cat c.base c.num)
    {t : TableID} {pk : List Str} {r : Row} (hk : IsKey db t pk) (h : Dumped db calls t pk r) :
    ∃ c ∈ calls, ∃ ts fs ss, Written cat c.num c.base c.pkey ext t ts fs ss ∧
      Selects (c.db db) (t, ss) r := by
  obtain ⟨hr, c, hc, j, hj, q, hq, r', hs, hsame⟩ := h
  obtain ⟨⟨base, st, hb, hid, hst, hjs⟩, hcl⟩ := hcalls c hc
  rw [hjs] at hj
  have hch := (subsetOf_inv hok hb.mem hst).chain t j hj
  rw [hid] at hch
  obtain ⟨ss, h1, h2⟩ := hch.written hok hcl
  have : toSteps j = some (t, ss) := by simp [toSteps, hch.last, h1]
  rw [this] at hq
  cases hq
  refine ⟨c, hc, _, _, ss, h2, ?_⟩
  obtain ⟨env, he, hd, hrest⟩ := hs
  have hne : t ≠ resultName c.num := fun h => hch.tables_ne hcl (h ▸ hch.mem)
  have : r' = r := hk.unique r' r ((call_db_ne hne).1 hd) hr hsame
  exact this ▸ ⟨env, he, hd, hrest⟩

/-- A subset dump contains nothing but the selected rows of the base tables and the rows that they refer
to, directly or indirectly. -/
theorem subset_minimal {cat : Cat} {db : Db} {calls : List Call} (hok : Cat.Ok cat)
    (hcalls : ∀ c ∈ calls, IsCall cat false c ∧ NoClash cat c.base c.num)
    {t : TableID} {pk : List Str} {r : Row} (hk : IsKey db t pk) (h : Dumped db calls t pk r) :
    ∃ c ∈ calls, Needed cat db c.base c.pkey c.result t r := by
  obtain ⟨c, hc, ts, fs, ss, hw, hs⟩ := dumped_written hok hcalls hk h
  exact ⟨c, hc, hw.needed (hcalls c hc).2 hs⟩

/-- An extended subset dump contains only rows connected to a selected row of a base table. -/
theorem extended_subset_minimal {cat : Cat} {db : Db} {calls : List Call} (hok : Cat.Ok cat)
    (hcalls : ∀ c ∈ calls, IsCall cat true c ∧ NoClash cat c.base c.num)
    {t : TableID} {pk : List Str} {r : Row} (hk : IsKey db t pk) (h : Dumped db calls t pk r) :
    ∃ c ∈ calls, Connected cat db c.base c.pkey c.result t r := by
  obtain ⟨c, hc, ts, fs, ss, hw, hs⟩ := dumped_written hok hcalls hk h
  exact ⟨c, hc, hw.connected (hcalls c hc).2 hs⟩

/-- The selected rows of the base table are in the dump. -/
theorem subset_base {cat : Cat} {db : Db} {calls : List Call} {ext : Bool} (hok : Cat.Ok cat)
    {c : Call} (hc : c ∈ calls) (hcall : IsCall cat ext c) (hcl : NoClash cat c.base c.num)
    {r q : Row} (hr : db c.base r) (hq : c.result q) (hs : SameKey c.pkey q r)
    (hk : IsKey db c.base c.pkey) : Dumped db calls c.base c.pkey r := by
  obtain ⟨base, st, hb, hid, hst, hjs⟩ := hcall
  have hi := subsetOf_inv hok hb.mem hst
  rw [hid] at hi
  refine ⟨hr, c, hc, _, hjs ▸ hi.base, ?_⟩
  refine ⟨_, base_steps c.pkey hcl.base, r, ?_, SameKey.refl hk hr⟩
  refine ⟨fun t => if t = c.base then r else q, by simp, (call_db_ne hcl.base).2 hr, ?_⟩
  intro s hs'
  rw [List.mem_singleton.1 hs']
  simp only [if_neg hcl.base.symm, if_true]
  exact ⟨call_db_result.2 hq, zip_self c.pkey ▸ hs⟩

/-! ## Completeness -/

/-- The invariant of the second loop for treelike foreign keys. -/
structure Tree (cat : Cat) (base : TableID) (st : St) : Prop where
  reach : ∀ f, f ∈ st.stack ∨ f ∈ st.visited → f ∈ cat.fkeys ∧ Reach cat base f.table
  source : ∀ f, f ∈ st.stack ∨ f ∈ st.visited →
    f.table = base ∨ ∃ g ∈ st.visited, g.refTable = f.table
  closed : ∀ f ∈ st.visited, ∀ j ∈ st.joins.get f.table,
    (⟨j.tables ++ [f.refTable], j.fkeys ++ [f]⟩ : Join) ∈ st.joins.get f.refTable
  tables : ∀ t, ∀ j ∈ st.joins.get t, ∀ x ∈ j.tables, x = base ∨ ∃ g ∈ st.visited, g.refTable = x ∧
    (x = t ∨ ∃ h ∈ st.visited, h.table = x)
  all : ∀ f ∈ cat.fkeys, (f.table = base ∨ ∃ g ∈ st.visited, g.refTable = f.table) →
    f ∈ st.stack ∨ f ∈ st.visited

theorem Tree.visit {cat : Cat} {base : TableID} (hok : Cat.Ok cat) (ht : Treelike cat base)
    {f : Fkey} {rest more v : List Fkey} {js : Joins} (h : Tree cat base ⟨f :: rest, v, js⟩)
    (hv : f ∉ v) (hp : pushed cat false f = some more) :
    Tree cat base (visit false f more rest ⟨f :: rest, v, js⟩) := by
  have hmore := pushed_forward hok hp
  obtain ⟨hf, hfr⟩ := h.reach f (.inl (by simp))
  have hfb := ht.notBase f hf hfr
  -- no other visited foreign key leads to the same table, unless that table is a leaf
  have hother : ∀ g ∈ v, g.refTable = f.refTable → ∀ k ∈ cat.fkeys, k.table ≠ f.refTable := by
    intro g hg he
    obtain ⟨hg1, hg2⟩ := h.reach g (.inr hg)
    exact ht.shared f hf g hg1 hfr hg2 he.symm fun e => hv (e ▸ hg)
  have hsrc : ∀ k, (k ∈ f :: rest ∨ k ∈ v) → k ∈ cat.fkeys → k.table ≠ f.refTable := by
    intro k hk hkf he
    rcases h.source k hk with hb | ⟨g, hg, hge⟩
    · exact hfb (he.symm.trans hb)
    · exact hother g hg (hge.trans he) k hkf he
  have hself : f.table ≠ f.refTable := hsrc f (.inl (by simp)) hf
  have hmem : ∀ g, g ∈ more.reverse ++ rest ∨ g ∈ f :: v →
      (g ∈ cat.fkeys ∧ g.table = f.refTable) ∨ g ∈ f :: rest ∨ g ∈ v := by
    intro g hg
    simp only [List.mem_append, List.mem_reverse, List.mem_cons] at hg ⊢
    rcases hg with (hg | hg) | (hg | hg)
    · exact .inl ((hmore g).1 hg)
    · exact .inr (.inl (.inr hg))
    · exact .inr (.inl (.inl hg))
    · exact .inr (.inr hg)
  refine ⟨?_, ?_, ?_, ?_, ?_⟩
  · intro g hg
    rcases hmem g hg with ⟨h1, h2⟩ | hg
    · exact ⟨h1, h2 ▸ .ref f hf hfr⟩
    · exact h.reach g hg
  · intro g hg
    rcases hmem g hg with ⟨h1, h2⟩ | hg
    · exact .inr ⟨f, by simp [Subset.visit], h2.symm⟩
    · exact (h.source g hg).imp_right fun ⟨k, hk, he⟩ => ⟨k, List.mem_cons_of_mem _ hk, he⟩
  · intro g hg j hj
    simp only [Subset.visit, List.mem_cons] at hg hj ⊢
    rw [mem_add_get] at hj ⊢
    have hgt : g.table ≠ f.refTable := by
      rcases hg with rfl | hg
      · exact hself
      · exact hsrc g (.inr hg) (h.reach g (.inr hg)).1
    rcases hj with hj | ⟨he, _⟩
    · rcases hg with rfl | hg
      · refine .inr ⟨rfl, mem_extend.2 ⟨j, hj, ?_, rfl⟩⟩
        intro hx
        rcases h.tables _ j hj _ hx with hb | ⟨k, hk, hke, hk2⟩
        · exact hfb hb
        · have hno := hother k hk hke
          rcases hk2 with he | ⟨l, hl, hle⟩
          · exact hself he.symm
          · exact hno l (h.reach l (.inr hl)).1 hle
      · exact .inl (h.closed g hg j hj)
    · exact absurd he hgt
  · intro t j hj x hx
    simp only [Subset.visit, List.mem_cons] at hj ⊢
    rw [mem_add_get] at hj
    rcases hj with hj | ⟨rfl, hj⟩
    · refine (h.tables t j hj x hx).imp_right ?_
      rintro ⟨g, hg, he, h2⟩
      exact ⟨g, .inr hg, he, h2.imp_right fun ⟨k, hk, hke⟩ => ⟨k, .inr hk, hke⟩⟩
    · obtain ⟨i, hi, hn, rfl⟩ := mem_extend.1 hj
      rcases List.mem_append.1 hx with hx | hx
      · refine (h.tables _ i hi x hx).imp_right ?_
        rintro ⟨g, hg, he, h2⟩
        refine ⟨g, .inr hg, he, .inr ?_⟩
        rcases h2 with rfl | ⟨k, hk, hke⟩
        · exact ⟨f, .inl rfl, rfl⟩
        · exact ⟨k, .inr hk, hke⟩
      · have hx : x = f.refTable := by simpa [dst] using hx
        exact .inr ⟨f, .inl rfl, hx.symm, .inl hx⟩
  · intro g hg hs
    simp only [Subset.visit, List.mem_append, List.mem_reverse, List.mem_cons] at hs ⊢
    have hold : g ∈ f :: rest ∨ g ∈ v → (g ∈ more ∨ g ∈ rest) ∨ g = f ∨ g ∈ v := by
      simp only [List.mem_cons]
      rintro ((h | h) | h)
      · exact .inr (.inl h)
      · exact .inl (.inr h)
      · exact .inr (.inr h)
    rcases hs with hs | ⟨k, rfl | hk, hke⟩
    · exact hold (h.all g hg (.inl hs))
    · exact .inl (.inl ((hmore g).2 ⟨hg, hke.symm⟩))
    · exact hold (h.all g hg (.inr ⟨k, hk, hke⟩))

theorem Tree.final {cat : Cat} {n : Nat} {base : Table} {pkey : List Str} {st : St} (hok : Cat.Ok cat)
    (ht : Treelike cat base.id) (hb : base ∈ cat.tables)
    (h : plainSubset cat n base pkey = .done st) :
    ∀ f ∈ cat.fkeys, Reach cat base.id f.table → ∀ j ∈ st.joins.get f.table,
      (⟨j.tables ++ [f.refTable], j.fkeys ++ [f]⟩ : Join) ∈ st.joins.get f.refTable := by
  have h0 : Tree cat base.id ⟨base.fkeys.reverse, [], initial n base.id pkey⟩ := by
    refine ⟨?_, ?_, by simp, ?_, ?_⟩
    · rintro f (hf | hf)
      · obtain ⟨h1, h2⟩ := base_fkeys hok hb f hf
        exact ⟨h1, h2 ▸ .base⟩
      · simp at hf
    · rintro f (hf | hf)
      · exact .inl (base_fkeys hok hb f hf).2
      · simp at hf
    · intro t j hj x hx
      simp only [initial] at hj
      split at hj
      · rw [List.mem_singleton] at hj
        subst hj
        exact .inl (by simpa using hx)
      · simp at hj
    · rintro f hf (he | ⟨g, hg, _⟩)
      · obtain ⟨u, hu, hfu⟩ := (mem_fkeys cat f).1 hf
        have := eq_of_id hok.nodup hu hb ((hok.owner u hu f hfu).symm.trans he)
        exact .inl (List.mem_reverse.2 (this ▸ hfu))
      · simp at hg
  obtain ⟨hfin, hempty⟩ := loop_invariant cat false (Tree cat base.id)
    (by
      intro f rest v js h hv
      have hmem : ∀ g, g ∈ rest ∨ g ∈ v → g ∈ f :: rest ∨ g ∈ v := fun g hg =>
        hg.imp_left (List.mem_cons_of_mem _)
      refine ⟨fun g hg => h.reach g (hmem g hg), fun g hg => h.source g (hmem g hg), h.closed, h.tables,
        fun g hg hs => ?_⟩
      rcases h.all g hg hs with h1 | h1
      · rcases List.mem_cons.1 h1 with rfl | h1
        · exact .inr hv
        · exact .inl h1
      · exact .inr h1)
    (fun f rest more v js h hv hp => h.visit hok ht hv hp) _ _ _ h0 h
  have hall : ∀ t, Reach cat base.id t → ∀ f ∈ cat.fkeys, f.table = t → f ∈ st.visited := by
    intro t hr
    induction hr with
    | base =>
      intro f hf he
      rcases hfin.all f hf (.inl he) with h1 | h1
      · rw [hempty] at h1; simp at h1
      · exact h1
    | ref g hg _ ih =>
      intro f hf he
      rcases hfin.all f hf (.inr ⟨g, ih g hg rfl, he.symm⟩) with h1 | h1
      · rw [hempty] at h1; simp at h1
      · exact h1
  intro f hf hr j hj
  exact hfin.closed f (hall _ hr f hf rfl) j hj

theorem needed_reach {cat : Cat} {db : Db} {base : TableID} {pk : List Str} {result : Row → Prop}
    {t : TableID} {r : Row} (h : Needed cat db base pk result t r) : Reach cat base t ∧ db t r := by
  induction h with
  | base r q hr _ _ => exact ⟨.base, hr⟩
  | ref f r r' _ hf hr' _ ih => exact ⟨.ref f hf ih.1, hr'⟩

/-- The rows needed are selected by a join. -/
theorem needed_selected {cat : Cat} {c : Call} {db : Db} (hok : Cat.Ok cat)
    (hc : NoClash cat c.base c.num) (hcall : IsCall cat false c) (ht : Treelike cat c.base)
    {t : TableID} {r : Row} (h : Needed cat db c.base c.pkey c.result t r) :
    ∃ j ∈ c.joins t, ∃ ss, toSteps j = some (t, ss) ∧ Selects (c.db db) (t, ss) r := by
  obtain ⟨base, st, hb, hid, hst, hjs⟩ := hcall
  have hi := subsetOf_inv hok hb.mem hst
  have hfin := Tree.final hok (hid ▸ ht) hb.mem hst
  rw [hid] at hi hfin
  rw [hjs]
  induction h with
  | base r q hr hq hs =>
    refine ⟨_, hi.base, _, base_steps c.pkey hc.base, ?_⟩
    refine ⟨fun t => if t = c.base then r else q, by simp, (call_db_ne hc.base).2 hr, ?_⟩
    intro s hs'
    rw [List.mem_singleton.1 hs']
    simp only [if_neg hc.base.symm, if_true]
    exact ⟨call_db_result.2 hq, zip_self c.pkey ▸ hs⟩
  | ref f r r' hn hf hr' href ih =>
    obtain ⟨j, hj, ss, hss, env, he, hd, hrest⟩ := ih
    have hj' := hfin f hf (needed_reach hn).1 j hj
    have hch := hi.chain _ _ hj'
    have hch0 := hi.chain _ _ hj
    obtain ⟨ss0, h1, h2⟩ := hch0.written hok hc
    have : toSteps j = some (f.table, ss0) := by simp [toSteps, hch0.last, h1]
    rw [this] at hss
    cases hss
    have hnotin : f.refTable ∉ j.tables := by
      intro h
      exact (List.nodup_append.1 hch.nodup).2.2 _ h _ (List.mem_singleton.2 rfl) rfl
    refine ⟨_, hj', ⟨f.table, f.refTable, f.columns.zip f.refColumns⟩ :: ss, ?_, ?_⟩
    · have hne : f.refTable ≠ f.table := fun he => hnotin (he ▸ hch0.mem)
      simp only [toSteps, List.getLast?_append, List.getLast?_singleton, Option.some_or,
        Option.bind_some]
      rw [List.reverse_append, List.reverse_cons, List.reverse_nil, List.nil_append, List.cons_append,
        List.nil_append, stepsFrom, if_neg hne, if_pos rfl,
        if_neg (by rw [hok.columns f hf]; exact Nat.lt_irrefl _), h1]
      rfl
    · have hsteps := h2.steps_mem
      have hkeep : ∀ x ∈ j.tables, (if x = f.refTable then r' else env x) = env x := fun x hx =>
        if_neg fun h : x = f.refTable => hnotin (h ▸ hx)
      have hkeep2 : (if resultName c.num = f.refTable then r' else env (resultName c.num)) =
          env (resultName c.num) := if_neg (hc.refTable f hf).symm
      refine ⟨fun x => if x = f.refTable then r' else env x, by simp,
        (call_db_ne (hc.refTable f hf)).2 hr', ?_⟩
      intro s hs
      rcases List.mem_cons.1 hs with rfl | hs
      · simp only [hkeep _ hch0.mem, if_true]
        rw [show env f.table = r from he]
        exact ⟨hd, href⟩
      · obtain ⟨h3, h4⟩ := hsteps s hs
        simp only [hkeep _ h4]
        rcases h3 with h3 | h3
        · simp only [hkeep _ h3]
          exact hrest s hs
        · have := hrest s hs
          simp only [h3] at this ⊢
          rw [hkeep2]
          exact this

/-- C48 for treelike foreign keys: a dump contains the selected rows of the base tables and everything that
they refer to, directly or indirectly.  `pk` gives the primary key of each table. -/
theorem subset_complete_partial {cat : Cat} {db : Db} {calls : List Call} (hok : Cat.Ok cat)
    (hcalls : ∀ c ∈ calls, IsCall cat false c ∧ NoClash cat c.base c.num ∧ Treelike cat c.base)
    {t : TableID} {pk : List Str} (hk : IsKey db t pk) {c : Call} (hc : c ∈ calls) {r : Row}
    (h : Needed cat db c.base c.pkey c.result t r) : Dumped db calls t pk r := by
  obtain ⟨h1, h2, h3⟩ := hcalls c hc
  obtain ⟨j, hj, ss, hss, hsel⟩ := needed_selected hok h2 h1 h3 h
  have hr := (needed_reach h).2
  exact ⟨hr, c, hc, j, hj, _, hss, r, hsel, SameKey.refl hk hr⟩

/-- C48 for treelike foreign keys: for every row in the dump, the rows that it refers to by foreign keys
are in the dump too. -/
theorem subset_intact_partial {cat : Cat} {db : Db} {calls : List Call} (hok : Cat.Ok cat)
    (hcalls : ∀ c ∈ calls, IsCall cat false c ∧ NoClash cat c.base c.num ∧ Treelike cat c.base)
    {f : Fkey} (hf : f ∈ cat.fkeys) {pk pk' : List Str} (hk : IsKey db f.table pk)
    (hk' : IsKey db f.refTable pk') {r r' : Row} (h : Dumped db calls f.table pk r)
    (hr' : db f.refTable r') (href : Refers f r r') : Dumped db calls f.refTable pk' r' := by
  obtain ⟨c, hc, hn⟩ := subset_minimal hok (fun c hc => ⟨(hcalls c hc).1, (hcalls c hc).2.1⟩) hk h
  exact subset_complete_partial hok hcalls hk' hc (.ref f r r' hn hf hr' href)

end Sqddl.Subset
