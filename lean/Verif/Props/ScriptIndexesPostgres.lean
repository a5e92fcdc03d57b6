import Verif.Spec.ScriptIndexesPostgres
import Verif.Props.ScriptKeysPostgres

/-!
# C110, C111: indexes, exclusion constraints and checks of Postgres
-/

namespace Sqddl.Scripts
open OwnSpec IndexSpec

/-! ## Loops -/

/-- two loops -/
def pairs {A B : Type} (l : List A) (g : A → List B) : List (A × B) := l.flatMap fun a => (g a).map (a, ·)

theorem mem_pairs {A B : Type} {l : List A} {g : A → List B} {a : A} {b : B} :
    (a, b) ∈ pairs l g ↔ a ∈ l ∧ b ∈ g a := by
  unfold pairs
  rw [List.mem_flatMap]
  constructor
  · rintro ⟨a', ha, h⟩
    obtain ⟨b', hb, e⟩ := List.mem_map.mp h
    cases e
    exact ⟨ha, hb⟩
  · rintro ⟨ha, hb⟩
    exact ⟨a, ha, List.mem_map.mpr ⟨b, hb, rfl⟩⟩

theorem nodup_pairs {A B : Type} {l : List A} {g : A → List B} (hl : l.Nodup) (hg : ∀ a, (g a).Nodup) :
    (pairs l g).Nodup := by
  refine nodup_flatMap_tag (·.1) hl (fun a _ => ?_) ?_
  · exact map_nodup_of (hg a) fun x _ y _ e => (Prod.mk.inj e).2
  · intro a _ x hx
    obtain ⟨b, _, rfl⟩ := List.mem_map.mp hx
    rfl

theorem flatMap_pairs {A B R : Type} (l : List A) (g : A → List B) (h : A × B → List R) :
    (pairs l g).flatMap h = l.flatMap fun a => (g a).flatMap fun b => h (a, b) := by
  unfold pairs
  rw [List.flatMap_assoc]
  exact flatMap_congr fun a _ => List.flatMap_map ..

/-! ## Left joins -/

theorem filter_le_one {A K : Type} {l : List A} {key : A → K} (hn : (l.map key).Nodup) {p : A → Bool} {k : K}
    (hp : ∀ a ∈ l, p a = true → key a = k) : (l.filter p).length ≤ 1 := by
  have h1 : ((l.filter p).map key).Nodup := hn.sublist (List.filter_sublist.map key)
  have h2 : ∀ a ∈ l.filter p, key a = k := fun a ha => hp a (List.mem_filter.mp ha).1 (List.mem_filter.mp ha).2
  match hl : l.filter p with
  | [] => exact Nat.zero_le _
  | [a] => exact Nat.le_refl _
  | a :: b :: r =>
    rw [hl] at h1 h2
    have : key a = key b := (h2 a (List.mem_cons_self ..)).trans
      (h2 b (List.mem_cons_of_mem _ (List.mem_cons_self ..))).symm
    rw [List.map_cons, List.map_cons, List.nodup_cons] at h1
    exact absurd (this ▸ List.mem_cons_self ..) h1.1

/-- A left join with at most one row gives one row. -/
theorem leftJoin_find {A : Type} {l : List A} {p : A → Bool} (h : (l.filter p).length ≤ 1) :
    leftJoin l p = [l.find? p] := by
  unfold leftJoin
  rw [← List.head?_filter]
  match hl : l.filter p with
  | [] => rw [if_pos rfl]; rfl
  | [a] => rw [if_neg (by simp)]; rfl
  | a :: b :: r => rw [hl] at h; simp at h

theorem leftJoin_key {A K : Type} {l : List A} {key : A → K} (hn : (l.map key).Nodup) {p : A → Bool} (k : K)
    (hp : ∀ a ∈ l, p a = true → key a = k) : leftJoin l p = [l.find? p] :=
  leftJoin_find (filter_le_one hn hp)

theorem zipIdx_nodup {A : Type} (l : List A) (m : Nat) : ((l.zipIdx m).map (·.2)).Nodup := by
  rw [show (l.zipIdx m).map (·.2) = List.range' m l.length from List.zipIdx_map_snd ..]
  exact List.nodup_range'

/-! ## Names by number -/

/-- the name of a number -/
def pgName (l : List PgNamed) (n : Nat) : Str := ((l.find? (fun p => p.oid == n)).map (·.name)).getD []

theorem find_named {l : List PgNamed} (hn : (l.map (·.oid)).Nodup) {p : PgNamed} (hp : p ∈ l) :
    l.find? (fun q => q.oid == p.oid) = some p := by
  cases hf : l.find? (fun q => q.oid == p.oid) with
  | none =>
    rw [List.find?_eq_none] at hf
    exact absurd (by simp) (hf p hp)
  | some q =>
    have h1 := List.find?_some hf
    rw [beq_iff_eq] at h1
    rw [map_nodup_inj hn (List.mem_of_find?_eq_some hf) hp h1]

theorem namedBy_eq {l : List PgNamed} (hn : (l.map (·.oid)).Nodup) {ns : List Nat} {ss : List Str}
    (h : NamedBy l ns ss) : ss = ns.map (pgName l) := by
  induction ns generalizing ss with
  | nil => cases ss with
    | nil => rfl
    | cons s ss => exact h.elim
  | cons n ns ih => cases ss with
    | nil => exact h.elim
    | cons s ss =>
      obtain ⟨⟨p, hp, rfl, rfl⟩, h2⟩ := h
      rw [List.map_cons, ← ih h2]
      unfold pgName
      rw [find_named hn hp]
      rfl

theorem namedBy_mem {l : List PgNamed} {ns : List Nat} {ss : List Str} (h : NamedBy l ns ss) :
    ∀ n ∈ ns, ∃ p ∈ l, p.oid = n := by
  induction ns generalizing ss with
  | nil => intro n hn; cases hn
  | cons m ns ih => cases ss with
    | nil => exact h.elim
    | cons s ss =>
      obtain ⟨⟨p, hp, h1, _⟩, h2⟩ := h
      intro n hn
      rcases List.mem_cons.mp hn with rfl | hn
      · exact ⟨p, hp, h1⟩
      · exact ih h2 n hn

theorem numbered_of_zipIdx {A C : Type} (n : Nat) (l : List A) (h : A × Nat → C) :
    numbered n ((l.zipIdx n).map h) = (l.zipIdx n).map fun k => (k.2, h k) := by
  induction l generalizing n with
  | nil => rfl
  | cons a l ih => rw [List.zipIdx_cons, List.map_cons, List.map_cons, ← ih]; rfl

theorem zipIdx_defs {A : Type} (c : PgCatalog) (index : Nat) (l : List A) :
    ((l.zipIdx 1).map fun k => c.indexdef index k.2) = defs c index l.length := by
  unfold defs
  refine (List.map_map (g := c.indexdef index) (f := fun k : A × Nat => k.2)).symm.trans ?_
  rw [show (l.zipIdx 1).map (·.2) = List.range' 1 l.length from List.zipIdx_map_snd .., List.range'_eq_map_range,
    List.map_map]
  refine List.map_congr_left fun k _ => ?_
  simp only [Function.comp, Nat.add_comm]

/-- the operator class of the column with a number -/
def classOf (c : PgCatalog) (x : PgIndexRow) (k : Nat) : Option PgNamed :=
  c.opclasses.find? fun p => ((x.indclass.zipIdx 1).find? (fun o => o.2 == k)).any (fun o => p.oid == o.1)

/-- the columns with their operator classes -/
def indexParts (c : PgCatalog) (x : PgIndexRow) (i : PgRel) : List (Str × Option Str) :=
  (x.indkey.zipIdx 1).map fun k => (c.indexdef i.oid k.2, (classOf c x k.2).map (·.name))

theorem pgIndexParts_eq {c : PgCatalog} (hv : PgCatalogValid c) (x : PgIndexRow) (i : PgRel) :
    pgIndexParts c x i = numbered 1 (indexParts c x i) := by
  unfold pgIndexParts indexParts
  rw [numbered_of_zipIdx, List.map_eq_flatMap]
  refine flatMap_congr fun k _ => ?_
  rw [leftJoin_key (zipIdx_nodup x.indclass 1) k.2 (fun a _ h => by simpa using h), List.flatMap_cons,
    List.flatMap_nil, List.append_nil]
  have h1 : leftJoin c.opclasses (fun p => ((x.indclass.zipIdx 1).find? (fun o => o.2 == k.2)).any
      (fun o => p.oid == o.1)) = [classOf c x k.2] := by
    unfold classOf
    cases ho : (x.indclass.zipIdx 1).find? (fun o => o.2 == k.2) with
    | none => exact leftJoin_key hv.opclassIds 0 (fun a _ h => by simp at h)
    | some o => exact leftJoin_key hv.opclassIds o.1 (fun a _ h => by simpa using h)
  rw [h1, List.flatMap_cons, List.flatMap_nil, List.append_nil,
    leftJoin_key hv.columnIds (x.indrelid, k.1) (fun a _ h => by
      simp only [Bool.and_eq_true, beq_iff_eq] at h; rw [h.1, h.2])]
  rfl

theorem classes_eq {l : List PgNamed} {A : Type} (m : Nat) (ks : List A)
    {ns : List Nat} (hle : ns.length ≤ ks.length) :
    ((ks.zipIdx m).map fun k => ((l.find? fun p => ((ns.zipIdx m).find? (fun o => o.2 == k.2)).any
      (fun o => p.oid == o.1)).map (·.name)).getD []) =
    ns.map (pgName l) ++ List.replicate (ks.length - ns.length) [] := by
  induction ks generalizing m ns with
  | nil =>
    have : ns = [] := List.length_eq_zero_iff.mp (Nat.le_zero.mp hle)
    subst this
    rfl
  | cons a ks ih =>
    cases ns with
    | nil =>
      have h := ih (m + 1) (ns := []) (Nat.zero_le _)
      rw [List.zipIdx_cons, List.map_cons]
      simp only [List.zipIdx_nil, List.find?_nil, Option.any_none, List.map_nil, List.nil_append, List.length_nil,
        Nat.sub_zero, List.length_cons, List.replicate_succ] at h ⊢
      rw [h]
      refine congrArg (· :: _) ?_
      rw [List.find?_eq_none.mpr (by simp)]
      rfl
    | cons n ns =>
      rw [List.zipIdx_cons, List.map_cons, List.zipIdx_cons, List.map_cons, List.cons_append, List.length_cons,
        List.length_cons, Nat.add_sub_add_right, ← ih (m + 1) (Nat.le_of_succ_le_succ hle)]
      refine congr (congrArg List.cons ?_) (List.map_congr_left fun k hk => ?_)
      · rw [List.find?_cons_of_pos (by simp)]
        rfl
      · have := zipIdx_ge hk
        rw [List.find?_cons_of_neg (by simp only [beq_iff_eq]; omega)]

/-! ## Indexes -/

/-- the indexes with their rows -/
def pgIndexTuples (f : Filter) (c : PgCatalog) : List (PgIndexRow × PgRel × PgRel × PgNamespace × PgNamed) :=
  pairs c.indexes fun x => pairs c.rels fun i => pairs c.rels fun t => pairs c.namespaces fun n =>
    c.ams.filter (pgIndexCond f c x i t n)

theorem mem_pgIndexTuples {f : Filter} {c : PgCatalog} {x : PgIndexRow} {i t : PgRel} {n : PgNamespace}
    {a : PgNamed} : (x, i, t, n, a) ∈ pgIndexTuples f c ↔
      x ∈ c.indexes ∧ i ∈ c.rels ∧ t ∈ c.rels ∧ n ∈ c.namespaces ∧ a ∈ c.ams ∧
        pgIndexCond f c x i t n a = true := by
  unfold pgIndexTuples
  rw [mem_pairs, mem_pairs, mem_pairs, mem_pairs, List.mem_filter]

theorem nodup_pgIndexTuples {f : Filter} {c : PgCatalog} (hv : PgCatalogValid c) : (pgIndexTuples f c).Nodup :=
  nodup_pairs (nodup_of_map hv.indexIds) fun _ => nodup_pairs (nodup_of_map hv.relIds) fun _ =>
    nodup_pairs (nodup_of_map hv.relIds) fun _ => nodup_pairs (nodup_of_map hv.schemaIds) fun _ =>
      (nodup_of_map hv.amIds).filter _

/-- the table is asked for -/
def RelAsked (f : Filter) (t : PgRel) (n : PgNamespace) : Prop :=
  (f.system = true ∨ ¬ PgOwn n.nspname) ∧ Wanted f.schemas f.excludeSchemas n.nspname ∧
    Wanted f.tables f.excludeTables t.relname

/-- no schema of the user begins with pg -/
def PlainSchemas (c : PgCatalog) : Prop := ∀ n ∈ c.namespaces, PlainSchema n.nspname

theorem pgIndexCond_iff {f : Filter} {c : PgCatalog} (hf : OneOf f.schemas f.excludeSchemas)
    (ht : OneOf f.tables f.excludeTables) (hp : PlainSchemas c) (hk : ConsApart c) {x : PgIndexRow} {i t : PgRel}
    {n : PgNamespace} {a : PgNamed} (hx : x ∈ c.indexes) (hi : i ∈ c.rels) (hn : n ∈ c.namespaces) :
    pgIndexCond f c x i t n a = true ↔ i.oid = x.indexrelid ∧ t.oid = x.indrelid ∧ n.oid = t.relnamespace ∧
      a.oid = i.relam ∧ (∀ k ∈ c.cons, k.made ≠ some x.indexrelid) ∧ RelAsked f t n := by
  unfold pgIndexCond RelAsked
  simp only [Bool.and_eq_true, beq_iff_eq, pgShown_iff hf (hp n hn), passes_iff ht, Bool.not_eq_true',
    List.any_eq_false]
  constructor
  · rintro ⟨⟨⟨⟨⟨⟨h1, h2⟩, h3⟩, h4⟩, h5⟩, h6, h7⟩, h8⟩
    exact ⟨h1, h2, h3, h4, fun k hk' e => h5 k hk' ((hk x hx i hi h1 k hk').mpr e), h6, h7, h8⟩
  · rintro ⟨h1, h2, h3, h4, h5, h6, h7, h8⟩
    exact ⟨⟨⟨⟨⟨⟨h1, h2⟩, h3⟩, h4⟩, fun k hk' e => h5 k hk' ((hk x hx i hi h1 k hk').mp e)⟩, h6, h7⟩, h8⟩

theorem indexTuple_inj {f : Filter} {c : PgCatalog} (hv : PgCatalogValid c)
    {y z : PgIndexRow × PgRel × PgRel × PgNamespace × PgNamed} (hy : y ∈ pgIndexTuples f c)
    (hz : z ∈ pgIndexTuples f c) (h : y.1.indexrelid = z.1.indexrelid) : y = z := by
  obtain ⟨x, i, t, n, a⟩ := y
  obtain ⟨x', i', t', n', a'⟩ := z
  obtain ⟨hx, hi, ht, hn, ha, hc⟩ := mem_pgIndexTuples.mp hy
  obtain ⟨hx', hi', ht', hn', ha', hc'⟩ := mem_pgIndexTuples.mp hz
  simp only [pgIndexCond, Bool.and_eq_true, beq_iff_eq] at hc hc' h
  obtain ⟨⟨⟨⟨⟨⟨h1, h2⟩, h3⟩, h4⟩, _⟩, _⟩, _⟩ := hc
  obtain ⟨⟨⟨⟨⟨⟨k1, k2⟩, k3⟩, k4⟩, _⟩, _⟩, _⟩ := hc'
  have e := map_nodup_inj hv.indexIds hx hx' h
  subst e
  have e := map_nodup_inj hv.relIds hi hi' (h1.trans k1.symm)
  subst e
  have e := map_nodup_inj hv.relIds ht ht' (h2.trans k2.symm)
  subst e
  have e := map_nodup_inj hv.schemaIds hn hn' (h3.trans k3.symm)
  subst e
  have e := map_nodup_inj hv.amIds ha ha' (h4.trans k4.symm)
  subst e
  rfl

theorem defs_length (c : PgCatalog) (index n : Nat) : (defs c index n).length = n := by
  unfold defs
  rw [List.length_map, List.length_range]

theorem defs_take (c : PgCatalog) (index : Nat) {m n : Nat} (h : m ≤ n) :
    (defs c index n).take m = defs c index m := by
  unfold defs
  rw [← List.map_take, List.take_range, Nat.min_eq_left h]

/-- an index as it is defined -/
def indexOut (c : PgCatalog) (x : PgIndexRow) (i t : PgRel) (n : PgNamespace) (a : PgNamed) (names : List Str) :
    PgIndexOut :=
  ⟨n.nspname, t.relname, i.relname, a.name, t.relkind == 'm', x.indisunique, defs c i.oid x.indnkeyatts,
    (defs c i.oid x.indkey.length).drop x.indnkeyatts,
    names ++ List.replicate (x.indkey.length - x.indnkeyatts) [], condition c x, c.indexdef i.oid 0 ++ b!";"⟩

theorem pgIndexOut_eq {c : PgCatalog} (hv : PgCatalogValid c) {x : PgIndexRow} (hx : x ∈ c.indexes) {i : PgRel}
    (hi : i.oid = x.indexrelid) (t : PgRel) (n : PgNamespace) (a : PgNamed) :
    pgIndexOut c (pgIndexKey x i t n a, indexParts c x i) =
      some (indexOut c x i t n a (x.indclass.map (pgName c.opclasses))) := by
  obtain ⟨_, h2, h3, _⟩ := hv.indexCols x hx
  have hlen : (indexParts c x i).length = x.indkey.length := by
    unfold indexParts
    rw [List.length_map, List.length_zipIdx]
  have hcols : (indexParts c x i).map (·.1) = defs c i.oid x.indkey.length := by
    unfold indexParts
    rw [List.map_map]
    exact zipIdx_defs c i.oid x.indkey
  have hops : (indexParts c x i).map (·.2.getD []) = x.indclass.map (pgName c.opclasses) ++
      List.replicate (x.indkey.length - x.indnkeyatts) [] := by
    unfold indexParts
    rw [List.map_map, ← h2]
    exact classes_eq 1 x.indkey (h2 ▸ h3)
  unfold pgIndexOut
  rw [if_pos (by rw [hlen]; exact h3), hcols, hops]
  unfold indexOut
  simp only [pgIndexKey, hi, defs_take c x.indexrelid h3]
  refine congrArg some ?_
  unfold condition
  cases x.indpred <;> rfl

/-- C111: the indexes of Postgres that are reported are those of the tables that are asked for that were
not made for constraints, each once, with the definitions of its key columns and of its included columns
in their order, an operator class for each key column, its access method, its condition and its
statement, and the split into key columns and included columns does not panic, if no constraint has the
name of another index and no schema of the user begins with pg. -/
theorem pg_index_columns_partial {f : Filter} {c : PgCatalog} (hf : OneOf f.schemas f.excludeSchemas)
    (ht : OneOf f.tables f.excludeTables) (hv : PgCatalogValid c) (hp : PlainSchemas c) (hk : ConsApart c) :
    (∀ y, y ∈ pgIndexCols f c ↔ ∃ x ∈ c.indexes, ∃ i ∈ c.rels, ∃ t ∈ c.rels, ∃ n ∈ c.namespaces, ∃ a ∈ c.ams,
      ∃ names, i.oid = x.indexrelid ∧ t.oid = x.indrelid ∧ n.oid = t.relnamespace ∧ a.oid = i.relam ∧
      (∀ k ∈ c.cons, k.made ≠ some x.indexrelid) ∧ RelAsked f t n ∧ NamedBy c.opclasses x.indclass names ∧
      y = some ⟨n.nspname, t.relname, i.relname, a.name, t.relkind == 'm', x.indisunique,
        defs c i.oid x.indnkeyatts, (defs c i.oid x.indkey.length).drop x.indnkeyatts,
        names ++ List.replicate (x.indkey.length - x.indnkeyatts) [], condition c x,
        c.indexdef i.oid 0 ++ b!";"⟩) ∧
    (pgIndexCols f c).Nodup := by
  let view : PgIndexRow × PgRel × PgRel × PgNamespace × PgNamed → PgIndexKey × List (Str × Option Str) := fun y =>
    (pgIndexKey y.1 y.2.1 y.2.2.1 y.2.2.2.1 y.2.2.2.2, indexParts c y.1 y.2.1)
  have hkey : (((pgIndexTuples f c).map view).map (·.1)).Nodup := by
    rw [List.map_map]
    refine map_nodup_of (nodup_pgIndexTuples hv) ?_
    intro y hy z hz e
    simp only [Function.comp, view, pgIndexKey, PgIndexKey.mk.injEq] at e
    exact indexTuple_inj hv hy hz e.2.2.2.2.2.2.2.1
  have hperm : (pgIndexCols f c).Perm ((pgIndexTuples f c).map fun y => pgIndexOut c (view y)) := by
    refine List.Perm.trans ?_ (.of_eq (List.map_map (f := view) (g := pgIndexOut c)))
    unfold pgIndexCols
    refine (grouped_perm 1 hkey ?_ (.of_eq ?_)).map _
    · intro g hg
      obtain ⟨⟨x, i, t, n, a⟩, h, rfl⟩ := List.mem_map.mp hg
      obtain ⟨hx, _⟩ := mem_pgIndexTuples.mp h
      intro e
      have hl := congrArg List.length e
      simp only [view, indexParts, List.length_map, List.length_zipIdx, List.length_nil] at hl
      exact (hv.indexCols x hx).1 (List.length_eq_zero_iff.mp hl)
    · rw [List.flatMap_map]
      unfold pgIndexTuples
      rw [flatMap_pairs]
      refine flatMap_congr fun x _ => ?_
      rw [flatMap_pairs]
      refine flatMap_congr fun i _ => ?_
      rw [flatMap_pairs]
      refine flatMap_congr fun t _ => ?_
      rw [flatMap_pairs]
      refine flatMap_congr fun n _ => ?_
      rw [← flatMap_if]
      refine flatMap_congr fun a _ => ?_
      rw [pgIndexParts_eq hv]
      rfl
  have hout : ∀ y ∈ pgIndexTuples f c, pgIndexOut c (view y) =
      some (indexOut c y.1 y.2.1 y.2.2.1 y.2.2.2.1 y.2.2.2.2 (y.1.indclass.map (pgName c.opclasses))) := by
    rintro ⟨x, i, t, n, a⟩ h
    obtain ⟨hx, hi, _, hn, _, hc⟩ := mem_pgIndexTuples.mp h
    exact pgIndexOut_eq hv hx ((pgIndexCond_iff hf ht hp hk hx hi hn).mp hc).1 t n a
  constructor
  · intro y
    rw [hperm.mem_iff, List.mem_map]
    constructor
    · rintro ⟨⟨x, i, t, n, a⟩, h, rfl⟩
      obtain ⟨hx, hi, htr, hn, ha, hc⟩ := mem_pgIndexTuples.mp h
      obtain ⟨h1, h2, h3, h4, h5, h6⟩ := (pgIndexCond_iff hf ht hp hk hx hi hn).mp hc
      obtain ⟨_, _, _, names, hnames⟩ := hv.indexCols x hx
      refine ⟨x, hx, i, hi, t, htr, n, hn, a, ha, names, h1, h2, h3, h4, h5, h6, hnames, ?_⟩
      rw [hout _ h, namedBy_eq hv.opclassIds hnames]
      rfl
    · rintro ⟨x, hx, i, hi, t, htr, n, hn, a, ha, names, h1, h2, h3, h4, h5, h6, hnames, rfl⟩
      have h := mem_pgIndexTuples.mpr ⟨hx, hi, htr, hn, ha,
        (pgIndexCond_iff hf ht hp hk hx hi hn).mpr ⟨h1, h2, h3, h4, h5, h6⟩⟩
      refine ⟨_, h, ?_⟩
      rw [hout _ h, namedBy_eq hv.opclassIds hnames]
      rfl
  · rw [hperm.nodup_iff]
    refine map_nodup_of (nodup_pgIndexTuples hv) ?_
    rintro ⟨x, i, t, n, a⟩ hy ⟨x', i', t', n', a'⟩ hz e
    rw [hout _ hy, hout _ hz] at e
    have e := Option.some.inj e
    simp only [indexOut, PgIndexOut.mk.injEq] at e
    obtain ⟨hx, hi, htr, hn, ha, hc⟩ := mem_pgIndexTuples.mp hy
    obtain ⟨hx', hi', htr', hn', ha', hc'⟩ := mem_pgIndexTuples.mp hz
    obtain ⟨h1, h2, h3, _⟩ := (pgIndexCond_iff hf ht hp hk hx hi hn).mp hc
    obtain ⟨k1, k2, k3, _⟩ := (pgIndexCond_iff hf ht hp hk hx' hi' hn').mp hc'
    have en := map_nodup_inj hv.schemaNames hn hn' e.1
    have ei := map_nodup_inj hv.relNames hi hi' (by
      rw [hv.indexSchema x hx i hi t htr h1 h2, hv.indexSchema x' hx' i' hi' t' htr' k1 k2, ← h3, ← k3, en, e.2.2.1])
    exact indexTuple_inj hv hy hz (by simp only; rw [← h1, ← k1, ei])

/-! ## Exclusion constraints -/

/-- the constraints with their rows -/
def pgExclusionTuples (f : Filter) (c : PgCatalog) :
    List (PgCon × PgRel × PgRel × PgNamespace × PgIndexRow × PgNamed) :=
  pairs c.cons fun k => pairs c.rels fun t => pairs c.rels fun i => pairs c.namespaces fun n =>
    pairs c.indexes fun x => c.ams.filter (pgExclusionCond f k t i n x)

theorem mem_pgExclusionTuples {f : Filter} {c : PgCatalog} {k : PgCon} {t i : PgRel} {n : PgNamespace}
    {x : PgIndexRow} {a : PgNamed} : (k, t, i, n, x, a) ∈ pgExclusionTuples f c ↔
      k ∈ c.cons ∧ t ∈ c.rels ∧ i ∈ c.rels ∧ n ∈ c.namespaces ∧ x ∈ c.indexes ∧ a ∈ c.ams ∧
        pgExclusionCond f k t i n x a = true := by
  unfold pgExclusionTuples
  rw [mem_pairs, mem_pairs, mem_pairs, mem_pairs, mem_pairs, List.mem_filter]

theorem nodup_pgExclusionTuples {f : Filter} {c : PgCatalog} (hv : PgCatalogValid c) :
    (pgExclusionTuples f c).Nodup :=
  nodup_pairs (nodup_of_map hv.conNames) fun _ => nodup_pairs (nodup_of_map hv.relIds) fun _ =>
    nodup_pairs (nodup_of_map hv.relIds) fun _ => nodup_pairs (nodup_of_map hv.schemaIds) fun _ =>
      nodup_pairs (nodup_of_map hv.indexIds) fun _ => (nodup_of_map hv.amIds).filter _

theorem pgExclusionCond_iff {f : Filter} {c : PgCatalog} (hf : OneOf f.schemas f.excludeSchemas)
    (ht : OneOf f.tables f.excludeTables) (hp : PlainSchemas c) {k : PgCon} {t i : PgRel} {n : PgNamespace}
    {x : PgIndexRow} {a : PgNamed} (hn : n ∈ c.namespaces) :
    pgExclusionCond f k t i n x a = true ↔ t.oid = k.conrelid ∧ i.oid = k.conindid ∧ n.oid = t.relnamespace ∧
      x.indexrelid = i.oid ∧ a.oid = i.relam ∧ k.contype = 'x' ∧ RelAsked f t n := by
  unfold pgExclusionCond RelAsked
  simp only [Bool.and_eq_true, beq_iff_eq, pgShown_iff hf (hp n hn), passes_iff ht]
  constructor
  · rintro ⟨⟨⟨⟨⟨⟨⟨h1, h2⟩, h3⟩, h4⟩, h5⟩, h6⟩, h7, h8⟩, h9⟩
    exact ⟨h1, h2, h3, h4, h5, h6, h7, h8, h9⟩
  · rintro ⟨h1, h2, h3, h4, h5, h6, h7, h8, h9⟩
    exact ⟨⟨⟨⟨⟨⟨⟨h1, h2⟩, h3⟩, h4⟩, h5⟩, h6⟩, h7, h8⟩, h9⟩

/-- the columns with their operators -/
def exclusionParts (c : PgCatalog) (k : PgCon) (i : PgRel) (x : PgIndexRow) : List (Str × Str) :=
  ((x.indkey.zip k.conexclop).zipIdx 1).map fun z => (c.indexdef i.oid z.2, pgName c.operators z.1.2)

theorem operator_one {R : Type} {l : List PgNamed} (hn : (l.map (·.oid)).Nodup) {n : Nat} (h : ∃ p ∈ l, p.oid = n)
    (g : Str → List R) : (l.flatMap fun p => if (p.oid == n) = true then g p.name else []) = g (pgName l n) := by
  obtain ⟨p, hp, rfl⟩ := h
  unfold pgName
  rw [flatMap_only hp (nodup_of_map hn), if_pos (by simp), find_named hn hp]
  · rfl
  · intro q hq hqp
    exact if_neg fun h => hqp (map_nodup_inj hn hq hp (by simpa using h))

theorem pgExclusionParts_eq {c : PgCatalog} (hv : PgCatalogValid c) {k : PgCon}
    (hk : ∃ names, NamedBy c.operators k.conexclop names) (i : PgRel) (x : PgIndexRow) :
    pgExclusionParts c k i x = numbered 1 (exclusionParts c k i x) := by
  obtain ⟨names, hnames⟩ := hk
  unfold pgExclusionParts exclusionParts
  rw [numbered_of_zipIdx, List.map_eq_flatMap]
  have hG : ∀ (y : Int) (o : Nat) (j : Nat), (leftJoin c.attributes (fun a => a.attrelid == x.indrelid && a.attnum == y)).flatMap
      (fun _ => c.operators.flatMap fun p => if (p.oid == o) = true then [(j, c.indexdef i.oid j, p.name)] else []) =
      c.operators.flatMap fun p => if (p.oid == o) = true then [(j, c.indexdef i.oid j, p.name)] else [] := by
    intro y o j
    rw [leftJoin_key hv.columnIds (x.indrelid, y) (fun a _ h => by
      simp only [Bool.and_eq_true, beq_iff_eq] at h; rw [h.1, h.2]), List.flatMap_cons, List.flatMap_nil,
      List.append_nil]
  simp only [hG]
  refine (join_numbers 1 x.indkey k.conexclop (fun _ o j => c.operators.flatMap fun p =>
    if (p.oid == o) = true then [(j, c.indexdef i.oid j, p.name)] else [])).trans ?_
  refine flatMap_congr fun z hz => ?_
  have hz1 : z.1 ∈ x.indkey.zip k.conexclop := by
    have : z.1 ∈ ((x.indkey.zip k.conexclop).zipIdx 1).map (·.1) := List.mem_map.mpr ⟨z, hz, rfl⟩
    rwa [show ((x.indkey.zip k.conexclop).zipIdx 1).map (·.1) = _ from List.zipIdx_map_fst 1 _] at this
  exact operator_one hv.operatorIds (namedBy_mem hnames _ (List.of_mem_zip hz1).2)
    (fun s => [(z.2, c.indexdef i.oid z.2, s)])

/-- C110: the exclusion constraints of Postgres that are reported are those of the tables that are asked
for, each once, with the definitions of the key columns and their operators in their order, the access
method, the condition of the index, and whether and how it is deferred. -/
theorem pg_exclusions_partial {f : Filter} {c : PgCatalog} (hf : OneOf f.schemas f.excludeSchemas)
    (ht : OneOf f.tables f.excludeTables) (hv : PgCatalogValid c) (hp : PlainSchemas c) :
    (∀ y, y ∈ pgExclusions f c ↔ ∃ k ∈ c.cons, ∃ t ∈ c.rels, ∃ i ∈ c.rels, ∃ n ∈ c.namespaces, ∃ x ∈ c.indexes,
      ∃ a ∈ c.ams, ∃ names, t.oid = k.conrelid ∧ i.oid = k.conindid ∧ n.oid = t.relnamespace ∧
      x.indexrelid = i.oid ∧ a.oid = i.relam ∧ k.contype = 'x' ∧ RelAsked f t n ∧
      NamedBy c.operators k.conexclop names ∧
      y = (⟨n.nspname, t.relname, k.conname, a.name, k.condeferrable, k.condeferred, x.indrelid, x.indpred⟩,
        defs c i.oid x.indnkeyatts, names, condition c x)) ∧
    (pgExclusions f c).Nodup := by
  let key : PgCon × PgRel × PgRel × PgNamespace × PgIndexRow × PgNamed → PgExclusion := fun y =>
    ⟨y.2.2.2.1.nspname, y.2.1.relname, y.1.conname, y.2.2.2.2.2.name, y.1.condeferrable, y.1.condeferred,
      y.2.2.2.2.1.indrelid, y.2.2.2.2.1.indpred⟩
  let view : PgCon × PgRel × PgRel × PgNamespace × PgIndexRow × PgNamed → PgExclusion × List (Str × Str) := fun y =>
    (key y, exclusionParts c y.1 y.2.2.1 y.2.2.2.2.1)
  let out : PgExclusion × List (Str × Str) → PgExclusion × List Str × List Str × Str :=
    fun g => (g.1, g.2.map (·.1), g.2.map (·.2), (g.1.pred.map (c.expr · g.1.rel)).getD [])
  have hinj : ∀ y ∈ pgExclusionTuples f c, ∀ z ∈ pgExclusionTuples f c, key y = key z → y = z := by
    rintro ⟨k, t, i, n, x, a⟩ hy ⟨k', t', i', n', x', a'⟩ hz e
    obtain ⟨hk, htr, hi, hn, hx, ha, hc⟩ := mem_pgExclusionTuples.mp hy
    obtain ⟨hk', htr', hi', hn', hx', ha', hc'⟩ := mem_pgExclusionTuples.mp hz
    obtain ⟨h1, h2, h3, h4, h5, _⟩ := (pgExclusionCond_iff hf ht hp hn).mp hc
    obtain ⟨k1, k2, k3, k4, k5, _⟩ := (pgExclusionCond_iff hf ht hp hn').mp hc'
    simp only [key, PgExclusion.mk.injEq] at e
    have e1 := map_nodup_inj hv.schemaNames hn hn' e.1
    subst e1
    have e1 := map_nodup_inj hv.relNames htr htr' (by rw [← h3, ← k3, e.2.1])
    subst e1
    have e1 := map_nodup_inj hv.conNames hk hk' (by rw [← h1, ← k1, e.2.2.1])
    subst e1
    have e1 := map_nodup_inj hv.relIds hi hi' (h2.trans k2.symm)
    subst e1
    have e1 := map_nodup_inj hv.indexIds hx hx' (h4.trans k4.symm)
    subst e1
    have e1 := map_nodup_inj hv.amIds ha ha' (h5.trans k5.symm)
    subst e1
    rfl
  have hkey : (((pgExclusionTuples f c).map view).map (·.1)).Nodup := by
    rw [List.map_map]
    exact map_nodup_of (nodup_pgExclusionTuples hv) hinj
  have hex : ∀ k t i n x a, (k, t, i, n, x, a) ∈ pgExclusionTuples f c →
      k.conexclop ≠ [] ∧ k.conexclop.length = x.indnkeyatts ∧ (∃ names, NamedBy c.operators k.conexclop names) ∧
      x.indkey ≠ [] ∧ x.indnkeyatts ≤ x.indkey.length := by
    intro k t i n x a h
    obtain ⟨hk, htr, hi, hn, hx, ha, hc⟩ := mem_pgExclusionTuples.mp h
    obtain ⟨h1, h2, h3, h4, h5, h6, _⟩ := (pgExclusionCond_iff hf ht hp hn).mp hc
    obtain ⟨a1, a2, a3⟩ := hv.exclusions k hk h6 x hx (h4.trans h2)
    obtain ⟨b1, _, b3, _⟩ := hv.indexCols x hx
    exact ⟨a1, a2, a3, b1, b3⟩
  have hperm : (pgExclusions f c).Perm ((pgExclusionTuples f c).map fun y => out (view y)) := by
    refine List.Perm.trans ?_ (.of_eq (List.map_map (f := view) (g := out)))
    unfold pgExclusions
    refine (grouped_perm 1 hkey ?_ (.of_eq ?_)).map out
    · intro g hg
      obtain ⟨⟨k, t, i, n, x, a⟩, h, rfl⟩ := List.mem_map.mp hg
      obtain ⟨a1, a2, _, b1, b3⟩ := hex k t i n x a h
      intro e
      have hl := congrArg List.length e
      simp only [view, exclusionParts, List.length_map, List.length_zipIdx, List.length_zip, List.length_nil] at hl
      have := List.length_pos_iff.mpr a1
      have := List.length_pos_iff.mpr b1
      omega
    · rw [List.flatMap_map]
      refine Eq.trans ?_ (b := (pgExclusionTuples f c).flatMap fun y =>
        (pgExclusionParts c y.1 y.2.2.1 y.2.2.2.2.1).map fun p => (key y, p)) ?_
      · unfold pgExclusionTuples
        rw [flatMap_pairs]
        refine flatMap_congr fun k _ => ?_
        rw [flatMap_pairs]
        refine flatMap_congr fun t _ => ?_
        rw [flatMap_pairs]
        refine flatMap_congr fun i _ => ?_
        rw [flatMap_pairs]
        refine flatMap_congr fun n _ => ?_
        rw [flatMap_pairs]
        refine flatMap_congr fun x _ => ?_
        rw [← flatMap_if]
      · refine flatMap_congr ?_
        rintro ⟨k, t, i, n, x, a⟩ h
        rw [pgExclusionParts_eq hv (hex k t i n x a h).2.2.1]
        rfl
  have hout : ∀ k t i n x a, (k, t, i, n, x, a) ∈ pgExclusionTuples f c → out (view (k, t, i, n, x, a)) =
      (⟨n.nspname, t.relname, k.conname, a.name, k.condeferrable, k.condeferred, x.indrelid, x.indpred⟩,
        defs c i.oid x.indnkeyatts, k.conexclop.map (pgName c.operators), condition c x) := by
    intro k t i n x a h
    obtain ⟨a1, a2, _, b1, b3⟩ := hex k t i n x a h
    have e1 : (exclusionParts c k i x).map (·.1) = defs c i.oid x.indnkeyatts := by
      unfold exclusionParts
      rw [List.map_map]
      refine (zipIdx_defs c i.oid (x.indkey.zip k.conexclop)).trans ?_
      rw [List.length_zip, a2, Nat.min_eq_right b3]
    have e2 : (exclusionParts c k i x).map (·.2) = k.conexclop.map (pgName c.operators) := by
      unfold exclusionParts
      rw [List.map_map]
      have : (((x.indkey.zip k.conexclop).zipIdx 1).map fun z => pgName c.operators z.1.2) =
          ((((x.indkey.zip k.conexclop).zipIdx 1).map (·.1)).map (·.2)).map (pgName c.operators) := by
        rw [List.map_map, List.map_map]
        rfl
      refine this.trans ?_
      rw [show ((x.indkey.zip k.conexclop).zipIdx 1).map (·.1) = _ from List.zipIdx_map_fst 1 _,
        show (x.indkey.zip k.conexclop).map (·.2) = _ from List.map_snd_zip (by omega)]
    have e3 : ((key (k, t, i, n, x, a)).pred.map (c.expr · (key (k, t, i, n, x, a)).rel)).getD [] = condition c x := by
      simp only [key]
      unfold condition
      cases x.indpred <;> rfl
    simp only [out, view, e1, e2, e3]
    rfl
  constructor
  · intro y
    rw [hperm.mem_iff, List.mem_map]
    constructor
    · rintro ⟨⟨k, t, i, n, x, a⟩, h, rfl⟩
      obtain ⟨hk, htr, hi, hn, hx, ha, hc⟩ := mem_pgExclusionTuples.mp h
      obtain ⟨h1, h2, h3, h4, h5, h6, h7⟩ := (pgExclusionCond_iff hf ht hp hn).mp hc
      obtain ⟨names, hnames⟩ := (hex k t i n x a h).2.2.1
      refine ⟨k, hk, t, htr, i, hi, n, hn, x, hx, a, ha, names, h1, h2, h3, h4, h5, h6, h7, hnames, ?_⟩
      rw [hout _ _ _ _ _ _ h, namedBy_eq hv.operatorIds hnames]
    · rintro ⟨k, hk, t, htr, i, hi, n, hn, x, hx, a, ha, names, h1, h2, h3, h4, h5, h6, h7, hnames, rfl⟩
      have h := mem_pgExclusionTuples.mpr ⟨hk, htr, hi, hn, hx, ha,
        (pgExclusionCond_iff hf ht hp hn).mpr ⟨h1, h2, h3, h4, h5, h6, h7⟩⟩
      refine ⟨_, h, ?_⟩
      rw [hout _ _ _ _ _ _ h, namedBy_eq hv.operatorIds hnames]
  · rw [hperm.nodup_iff]
    refine map_nodup_of (nodup_pgExclusionTuples hv) fun y hy z hz e => hinj y hy z hz ?_
    exact congrArg (·.1) e

/-! ## Checks -/

/-- C110: the checks of Postgres that are reported are those of the tables that are asked for, each once,
with its definition, whether and how it is deferred and whether it is validated. -/
theorem pg_checks_partial {f : Filter} {c : PgCatalog} (hf : OneOf f.schemas f.excludeSchemas)
    (ht : OneOf f.tables f.excludeTables) (hv : PgCatalogValid c) (hp : PlainSchemas c) :
    (∀ y, y ∈ pgChecks f c ↔ ∃ k ∈ c.cons, ∃ t ∈ c.rels, ∃ n ∈ c.namespaces, t.oid = k.conrelid ∧
      n.oid = t.relnamespace ∧ k.contype = 'c' ∧ RelAsked f t n ∧
      y = (n.nspname, t.relname, k.conname, c.constraintdef k.oid, k.condeferrable, k.condeferred,
        !k.convalidated)) ∧
    (pgChecks f c).Nodup := by
  let cond : PgCon → PgRel → PgNamespace → Bool := fun k t n => t.oid == k.conrelid && n.oid == t.relnamespace &&
    k.contype == 'c' && pgShown f n.nspname && passes f.tables f.excludeTables t.relname
  let tuples := pairs c.cons fun k => pairs c.rels fun t => c.namespaces.filter (cond k t)
  let out : PgCon × PgRel × PgNamespace → Str × Str × Str × Str × Bool × Bool × Bool := fun y =>
    (y.2.2.nspname, y.2.1.relname, y.1.conname, c.constraintdef y.1.oid, y.1.condeferrable, y.1.condeferred,
      !y.1.convalidated)
  have hcond : ∀ k t, ∀ n ∈ c.namespaces, cond k t n = true ↔ t.oid = k.conrelid ∧ n.oid = t.relnamespace ∧
      k.contype = 'c' ∧ RelAsked f t n := by
    intro k t n hn
    simp only [cond, RelAsked, Bool.and_eq_true, beq_iff_eq, pgShown_iff hf (hp n hn), passes_iff ht]
    constructor
    · rintro ⟨⟨⟨⟨h1, h2⟩, h3⟩, h4, h5⟩, h6⟩; exact ⟨h1, h2, h3, h4, h5, h6⟩
    · rintro ⟨h1, h2, h3, h4, h5, h6⟩; exact ⟨⟨⟨⟨h1, h2⟩, h3⟩, h4, h5⟩, h6⟩
  have he : pgChecks f c = tuples.map out := by
    simp only [tuples]
    rw [List.map_eq_flatMap, flatMap_pairs]
    unfold pgChecks
    refine flatMap_congr fun k _ => ?_
    rw [flatMap_pairs]
    refine flatMap_congr fun t _ => ?_
    rw [← flatMap_if]
  have hmem : ∀ k t n, (k, t, n) ∈ tuples ↔ k ∈ c.cons ∧ t ∈ c.rels ∧ n ∈ c.namespaces ∧ cond k t n = true := by
    intro k t n
    simp only [tuples]
    rw [mem_pairs, mem_pairs, List.mem_filter]
  constructor
  · intro y
    rw [he, List.mem_map]
    constructor
    · rintro ⟨⟨k, t, n⟩, h, rfl⟩
      obtain ⟨hk, htr, hn, hc⟩ := (hmem k t n).mp h
      obtain ⟨h1, h2, h3, h4⟩ := (hcond k t n hn).mp hc
      exact ⟨k, hk, t, htr, n, hn, h1, h2, h3, h4, rfl⟩
    · rintro ⟨k, hk, t, htr, n, hn, h1, h2, h3, h4, rfl⟩
      exact ⟨(k, t, n), (hmem k t n).mpr ⟨hk, htr, hn, (hcond k t n hn).mpr ⟨h1, h2, h3, h4⟩⟩, rfl⟩
  · rw [he]
    refine map_nodup_of (nodup_pairs (nodup_of_map hv.conNames) fun _ => nodup_pairs (nodup_of_map hv.relIds)
      fun _ => (nodup_of_map hv.schemaIds).filter _) ?_
    rintro ⟨k, t, n⟩ hy ⟨k', t', n'⟩ hz e
    obtain ⟨hk, htr, hn, hc⟩ := (hmem k t n).mp hy
    obtain ⟨hk', htr', hn', hc'⟩ := (hmem k' t' n').mp hz
    obtain ⟨h1, h2, _⟩ := (hcond k t n hn).mp hc
    obtain ⟨k1, k2, _⟩ := (hcond k' t' n' hn').mp hc'
    simp only [out, Prod.mk.injEq] at e
    have e1 := map_nodup_inj hv.schemaNames hn hn' e.1
    subst e1
    have e1 := map_nodup_inj hv.relNames htr htr' (by rw [← h2, ← k2, e.2.1])
    subst e1
    have e1 := map_nodup_inj hv.conNames hk hk' (by rw [← h1, ← k1, e.2.2.1])
    subst e1
    rfl

end Sqddl.Scripts
