import Verif.Spec.Engine

/-!
# Lemmas about the database that runs DDL statements
-/

namespace EngineSpec
open SqlSpec Sqddl DdlText

theorem put_self {α β : Type} [DecidableEq α] (f : α → β) (a : α) (b : β) : put f a b a = b := by
  simp [put]

theorem put_ne {α β : Type} [DecidableEq α] (f : α → β) {a x : α} (b : β) (h : x ≠ a) :
    put f a b x = f x := by simp [put, h]

theorem runs_append (db : Db) (a b : List Stmt) (m db' : Db) (h1 : Runs db a m) (h2 : Runs m b db') :
    Runs db (a ++ b) db' := by
  induction a generalizing db with
  | nil => cases h1; exact h2
  | cons st r ih =>
    obtain ⟨x, hx, hc, hr⟩ := h1
    exact ⟨x, hx, hc, ih x hr⟩

/-- Statements that keep an invariant. -/
theorem runs_fold {α : Type} (f : α → Stmt) (P : List α → Db → Prop)
    (hc : ∀ xs db, P xs db → db.Consistent)
    (hs : ∀ x xs db, P (x :: xs) db → ∃ m, step db (f x) = some m ∧ P xs m) :
    ∀ xs db, P xs db → ∃ db', Runs db (xs.map f) db' ∧ P [] db' := by
  intro xs
  induction xs with
  | nil => intro db h; exact ⟨db, rfl, h⟩
  | cons x xs ih =>
    intro db h
    obtain ⟨m, h1, h2⟩ := hs x xs db h
    obtain ⟨db', h3, h4⟩ := ih m h2
    exact ⟨db', ⟨m, h1, hc _ _ h2, h3⟩, h4⟩

/-! ## Tables that are alike -/

/-- Two tables that differ in the definitions of columns at most. -/
structure Tbl.Alike (t u : Tbl) : Prop where
  col : ∀ n, (t.col n).isSome = (u.col n).isSome
  con : t.con = u.con
  idx : t.idx = u.idx

/-- Two databases that differ in the definitions of columns at most. -/
structure Db.Alike (a b : Db) : Prop where
  schema : a.schema = b.schema
  table : ∀ k, match a.table k, b.table k with
    | some t, some u => Tbl.Alike t u
    | none, none => True
    | _, _ => False

theorem Tbl.Alike.symm {t u : Tbl} (h : Tbl.Alike t u) : Tbl.Alike u t :=
  ⟨fun n => (h.col n).symm, h.con.symm, h.idx.symm⟩

theorem Db.Alike.some {a b : Db} (h : Db.Alike a b) {k : Key} {t : Tbl} (ht : a.table k = some t) :
    ∃ u, b.table k = some u ∧ Tbl.Alike t u := by
  have := h.table k
  rw [ht] at this
  cases e : b.table k with
  | none => rw [e] at this; exact this.elim
  | some u => rw [e] at this; exact ⟨u, rfl, this⟩

theorem Db.Alike.symm {a b : Db} (h : Db.Alike a b) : Db.Alike b a := by
  refine ⟨h.schema.symm, fun k => ?_⟩
  have := h.table k
  cases e1 : a.table k <;> cases e2 : b.table k <;> rw [e1, e2] at this
  · trivial
  · exact this.elim
  · exact this.elim
  · exact Tbl.Alike.symm this

theorem Tbl.Alike.key {t u : Tbl} (h : Tbl.Alike t u) {cols : List Str} (hk : Tbl.Key t cols) :
    Tbl.Key u cols := by
  unfold Tbl.Key at *
  rw [← h.con, ← h.idx]; exact hk

theorem Tbl.Alike.sound {t u : Tbl} (h : Tbl.Alike t u) (hs : t.Sound) : u.Sound where
  nonempty := by
    obtain ⟨n, hn⟩ := hs.nonempty
    exact ⟨n, by rw [← h.col n]; exact hn⟩
  con := by
    intro n c hc x hx
    rw [← h.con] at hc
    rw [← h.col x]; exact hs.con n c hc x hx
  idx := by
    intro n x hx y d hy
    rw [← h.idx] at hx
    rw [← h.col y]; exact hs.idx n x hx y d hy
  names := by rw [← h.con, ← h.idx]; exact hs.names

theorem Db.Alike.target {a b : Db} (h : Db.Alike a b) {cols : List Str} {ref : Ref}
    (ht : a.Target cols ref) : b.Target cols ref := by
  obtain ⟨h1, r, h2, h3, h4⟩ := ht
  obtain ⟨u, h5, h6⟩ := h.some h2
  exact ⟨h1, u, h5, fun x hx => by rw [← h6.col x]; exact h3 x hx, h6.key h4⟩

theorem Db.Alike.consistent {a b : Db} (h : Db.Alike a b) (hc : a.Consistent) : b.Consistent where
  schema := by
    intro k t ht
    obtain ⟨u, hu, _⟩ := h.symm.some ht
    rw [← h.schema]; exact hc.schema k u hu
  sound := by
    intro k t ht
    obtain ⟨u, hu, h1⟩ := h.symm.some ht
    exact h1.symm.sound (hc.sound k u hu)
  fkey := by
    intro k t n c cols ref ht hn hk
    obtain ⟨u, hu, h1⟩ := h.symm.some ht
    rw [h1.con] at hn
    exact h.target (hc.fkey k u n c cols ref hu hn hk)
  names := by
    intro s x y t u n c d cols ref cols' ref' h1 h2 h3 h4 h5 h6
    obtain ⟨t', e1, g1⟩ := h.symm.some h1
    obtain ⟨u', e2, g2⟩ := h.symm.some h2
    rw [g1.con] at h3
    rw [g2.con] at h4
    exact hc.names s x y t' u' n c d cols ref cols' ref' e1 e2 h3 h4 h5 h6

/-! ## Tables without some of their foreign keys -/

/-- The constraint is a foreign key. -/
def isF (c : Con) : Bool :=
  match c.kind with
  | .foreign _ _ => true
  | _ => false

theorem isF_iff (c : Con) : isF c = true ↔ ∃ cols ref, c.kind = .foreign cols ref := by
  unfold isF
  cases c.kind <;> simp

/-- The table without the foreign keys that `p` excludes. -/
def Tbl.cut (p : Str → Bool) (t : Tbl) : Tbl :=
  { t with con := fun n => (t.con n).filter fun c => !(isF c && p n) }

theorem cut_con {p : Str → Bool} {t : Tbl} {n : Str} {c : Con} :
    (t.cut p).con n = some c ↔ t.con n = some c ∧ (isF c && p n) = false := by
  simp only [Tbl.cut, Option.filter_eq_some_iff, Bool.not_eq_true']

theorem filter_true {α : Type} (o : Option α) : o.filter (fun _ => true) = o := by
  cases o <;> rfl

theorem cut_key {p : Str → Bool} {t : Tbl} {cols : List Str} :
    Tbl.Key (t.cut p) cols ↔ Tbl.Key t cols := by
  unfold Tbl.Key
  have : (∃ n c, (t.cut p).con n = some c ∧ (c.kind = .primary cols ∨ c.kind = .unique cols)) ↔
      ∃ n c, t.con n = some c ∧ (c.kind = .primary cols ∨ c.kind = .unique cols) := by
    constructor
    · rintro ⟨n, c, h1, h2⟩
      exact ⟨n, c, (cut_con.1 h1).1, h2⟩
    · rintro ⟨n, c, h1, h2⟩
      refine ⟨n, c, cut_con.2 ⟨h1, ?_⟩, h2⟩
      rcases h2 with h2 | h2 <;> simp [isF, h2]
  rw [this]
  rfl

theorem cut_sound {p : Str → Bool} {t : Tbl} (h : t.Sound) : (t.cut p).Sound where
  nonempty := h.nonempty
  con := fun n c hc => h.con n c (cut_con.1 hc).1
  idx := h.idx
  names := fun n c x hc hx => h.names n c x (cut_con.1 hc).1 hx

/-- The database without the foreign keys that `p` excludes. -/
def Db.cut (p : Key → Str → Bool) (db : Db) : Db :=
  { db with table := fun k => (db.table k).map (Tbl.cut (p k)) }

theorem dcut_table {p : Key → Str → Bool} {db : Db} {k : Key} {t : Tbl} :
    (db.cut p).table k = some t ↔ ∃ u, db.table k = some u ∧ t = u.cut (p k) := by
  unfold Db.cut
  simp only [Option.map_eq_some_iff]
  exact ⟨fun ⟨u, h1, h2⟩ => ⟨u, h1, h2.symm⟩, fun ⟨u, h1, h2⟩ => ⟨u, h1, h2.symm⟩⟩

theorem dcut_consistent {p : Key → Str → Bool} {db : Db} (h : db.Consistent) :
    (db.cut p).Consistent where
  schema := by
    intro k t ht
    obtain ⟨u, hu, rfl⟩ := dcut_table.1 ht
    exact h.schema k u hu
  sound := by
    intro k t ht
    obtain ⟨u, hu, rfl⟩ := dcut_table.1 ht
    exact cut_sound (h.sound k u hu)
  fkey := by
    intro k t n c cols ref ht hn hk
    obtain ⟨u, hu, rfl⟩ := dcut_table.1 ht
    obtain ⟨h1, r, h2, h3, h4⟩ := h.fkey k u n c cols ref hu (cut_con.1 hn).1 hk
    exact ⟨h1, r.cut (p (key ref.table)), dcut_table.2 ⟨r, h2, rfl⟩, h3, cut_key.2 h4⟩
  names := by
    intro s x y t u n c d cols ref cols' ref' h1 h2 h3 h4 h5 h6
    obtain ⟨t', e1, rfl⟩ := dcut_table.1 h1
    obtain ⟨u', e2, rfl⟩ := dcut_table.1 h2
    exact h.names s x y t' u' n c d cols ref cols' ref' e1 e2 (cut_con.1 h3).1 (cut_con.1 h4).1 h5 h6

/-- One foreign key is dropped. -/
theorem step_dropFkey {db : Db} {k : Key} {t : Tbl} {n : Str} {c : Con} (ht : db.table k = some t)
    (hc : t.con n = some c) (hf : isF c = true) (nm : Name) (hk : key nm = k) :
    step db (.alterTable nm [.dropConstraint n]) =
      some (db.cut fun k' n' => decide (k' = k ∧ n' = n)) := by
  subst hk
  simp only [step, ht, Option.bind_some, acts, List.foldlM_cons, List.foldlM_nil, act, hc,
    Option.isSome_some, if_true]
  simp only [bind, Option.bind, pure, Option.map_some, Option.some.injEq, Db.cut]
  congr 1
  funext k'
  by_cases e : k' = key nm
  · subst e
    rw [put_self, ht, Option.map_some]
    congr 1
    unfold Tbl.cut
    congr 1
    funext n'
    by_cases e2 : n' = n
    · subst e2; rw [put_self, hc, Option.filter_some]; simp [hf]
    · rw [put_ne _ _ e2]; simp [e2, filter_true]
  · rw [put_ne _ _ e]
    have : (fun n' => decide (k' = key nm ∧ n' = n)) = fun _ => false := by
      funext n'; simp [e]
    rw [this]
    have e3 : Tbl.cut (fun _ => false) = id := by
      funext t; simp [Tbl.cut, filter_true]
    rw [e3]; simp

theorem cut_cut (p q : Key → Str → Bool) (db : Db) :
    (db.cut p).cut q = db.cut fun k n => p k n || q k n := by
  unfold Db.cut Tbl.cut
  simp only [Option.map_map]
  congr 1
  funext k
  congr 1
  funext t
  simp only [Function.comp]
  congr 1
  funext n
  rw [Option.filter_filter]
  congr 1
  funext c
  cases isF c <;> cases p k n <;> cases q k n <;> rfl

theorem cut_congr {p q : Key → Str → Bool} {db : Db}
    (h : ∀ k t n c, db.table k = some t → t.con n = some c → isF c = true → p k n = q k n) :
    db.cut p = db.cut q := by
  unfold Db.cut
  congr 1
  funext k
  cases e : db.table k with
  | none => rfl
  | some t =>
    simp only [Option.map_some, Option.some.injEq, Tbl.cut]
    congr 1
    funext n
    cases e2 : t.con n with
    | none => rfl
    | some c =>
      simp only [Option.filter_some]
      cases hf : isF c with
      | false => rfl
      | true => rw [h k t n c e e2 hf]

/-- One foreign key is added. -/
theorem step_addFkey {db : Db} {p : Key → Str → Bool} {k : Key} {t : Tbl} {n : Str} {c : Con}
    (ht : db.table k = some t) (hc : t.con n = some c) (hf : isF c = true) (hn : conId c = n)
    (hp : p k n = true) (nm : Name) (hk : key nm = k) :
    step (db.cut p) (.alterTable nm [.addConstraint c]) =
      some (db.cut fun k' n' => p k' n' && !decide (k' = k ∧ n' = n)) := by
  subst hk
  have h1 : (db.cut p).table (key nm) = some (t.cut (p (key nm))) := dcut_table.2 ⟨t, ht, rfl⟩
  have h2 : ((t.cut (p (key nm))).con (conId c)).isNone := by
    rw [hn]; simp [Tbl.cut, hc, hf, hp]
  simp only [step, h1, Option.bind_some, acts, List.foldlM_cons, List.foldlM_nil, act, h2, if_true]
  simp only [bind, Option.bind, pure, Option.map_some, Option.some.injEq, Db.cut]
  congr 1
  funext k'
  by_cases e : k' = key nm
  · subst e
    rw [put_self, ht, Option.map_some]
    congr 1
    unfold Tbl.cut
    congr 1
    funext n'
    rw [hn]
    by_cases e2 : n' = n
    · subst e2; rw [put_self, hc, Option.filter_some]; simp
    · rw [put_ne _ _ e2]; simp [e2]
  · rw [put_ne _ _ e]
    have : (fun n' => p k' n' && !decide (k' = key nm ∧ n' = n)) = p k' := by
      funext n'; simp [e]
    rw [this]

/-! ## Parts of ALTER TABLE -/

theorem acts_append (t u : Tbl) (a b : List Action) (h : acts t a = some u) :
    acts t (a ++ b) = acts u b := by
  unfold acts at *
  rw [List.foldlM_append, h]; rfl

theorem acts_cons (t u : Tbl) (a : Action) (b : List Action) (h : act t a = some u) :
    acts t (a :: b) = acts u b := by
  unfold acts
  rw [List.foldlM_cons, h]; rfl

theorem acts_dropConstraints (ns : List Str) (t : Tbl) (h0 : ns.Nodup)
    (h : ∀ n ∈ ns, (t.con n).isSome) :
    acts t (ns.map .dropConstraint) =
      some { t with con := fun n => if n ∈ ns then none else t.con n } := by
  induction ns generalizing t with
  | nil => simp [acts]
  | cons n ns ih =>
    obtain ⟨h1, h2⟩ := List.nodup_cons.1 h0
    rw [List.map_cons, acts_cons _ { t with con := put t.con n none } _ _ (by
      simp [act, h n (by simp)])]
    rw [ih _ h2 (by
      intro m hm
      dsimp only
      rw [put_ne _ _ (by rintro rfl; exact h1 hm)]
      exact h m (by simp [hm]))]
    congr 2
    funext m
    by_cases e : m = n
    · subst e; simp [put]
    · simp [put, e]

theorem acts_dropIndexes (ns : List Str) (t : Tbl) (h0 : ns.Nodup)
    (h : ∀ n ∈ ns, (t.idx n).isSome) :
    acts t (ns.map .dropIndex) =
      some { t with idx := fun n => if n ∈ ns then none else t.idx n } := by
  induction ns generalizing t with
  | nil => simp [acts]
  | cons n ns ih =>
    obtain ⟨h1, h2⟩ := List.nodup_cons.1 h0
    rw [List.map_cons, acts_cons _ { t with idx := put t.idx n none } _ _ (by
      simp [act, h n (by simp)])]
    rw [ih _ h2 (by
      intro m hm
      dsimp only
      rw [put_ne _ _ (by rintro rfl; exact h1 hm)]
      exact h m (by simp [hm]))]
    congr 2
    funext m
    by_cases e : m = n
    · subst e; simp [put]
    · simp [put, e]

theorem acts_dropColumns (ns : List Str) (t : Tbl) (h0 : ns.Nodup)
    (h : ∀ n ∈ ns, (t.col n).isSome) :
    acts t (ns.map .dropColumn) =
      some { t with col := fun n => if n ∈ ns then none else t.col n } := by
  induction ns generalizing t with
  | nil => simp [acts]
  | cons n ns ih =>
    obtain ⟨h1, h2⟩ := List.nodup_cons.1 h0
    rw [List.map_cons, acts_cons _ { t with col := put t.col n none } _ _ (by
      simp [act, h n (by simp)])]
    rw [ih _ h2 (by
      intro m hm
      dsimp only
      rw [put_ne _ _ (by rintro rfl; exact h1 hm)]
      exact h m (by simp [hm]))]
    congr 2
    funext m
    by_cases e : m = n
    · subst e; simp [put]
    · simp [put, e]

/-- The function with the values of a list; the name of a value is `nm`. -/
def puts {α : Type} (nm : α → Str) (f : Str → Option α) (xs : List α) : Str → Option α :=
  fun n => match xs.find? fun x => nm x == n with
    | some x => some x
    | none => f n

theorem puts_cons {α : Type} (nm : α → Str) (f : Str → Option α) (x : α) (xs : List α)
    (h : nm x ∉ xs.map nm) : puts nm (put f (nm x) (some x)) xs = puts nm f (x :: xs) := by
  funext n
  unfold puts
  by_cases e : nm x = n
  · subst e
    have : xs.find? (fun y => nm y == nm x) = none := by
      rw [List.find?_eq_none]
      intro y hy hc
      exact h (by rw [← eq_of_beq hc]; exact List.mem_map_of_mem hy)
    rw [this]
    simp [put]
  · have e' : n ≠ nm x := fun h => e h.symm
    rw [List.find?_cons_of_neg (by simp [e]), put_ne _ _ e']

theorem acts_addColumns (cs : List Col) (t : Tbl) (h0 : (cs.map fun c => c.name).Nodup)
    (h : ∀ c ∈ cs, t.col c.name = none) :
    acts t (cs.map .addColumn) = some { t with col := puts (fun c => c.name) t.col cs } := by
  induction cs generalizing t with
  | nil => rfl
  | cons c cs ih =>
    obtain ⟨h1, h2⟩ := List.nodup_cons.1 h0
    rw [List.map_cons, acts_cons _ { t with col := put t.col c.name (some c) } _ _ (by
      simp [act, h c (by simp)])]
    rw [ih _ h2 (by
      intro m hm
      dsimp only
      rw [put_ne _ _ (by intro e; exact h1 (List.mem_map.2 ⟨m, hm, e⟩))]
      exact h m (by simp [hm]))]
    rw [puts_cons _ _ _ _ h1]

theorem acts_modifyColumns (cs : List Col) (t : Tbl) (h0 : (cs.map fun c => c.name).Nodup)
    (h : ∀ c ∈ cs, (t.col c.name).isSome) :
    acts t (cs.map .modifyColumn) = some { t with col := puts (fun c => c.name) t.col cs } := by
  induction cs generalizing t with
  | nil => rfl
  | cons c cs ih =>
    obtain ⟨h1, h2⟩ := List.nodup_cons.1 h0
    rw [List.map_cons, acts_cons _ { t with col := put t.col c.name (some c) } _ _ (by
      simp [act, h c (by simp)])]
    rw [ih _ h2 (by
      intro m hm
      dsimp only
      rw [put_ne _ _ (by intro e; exact h1 (List.mem_map.2 ⟨m, hm, e⟩))]
      exact h m (by simp [hm]))]
    rw [puts_cons _ _ _ _ h1]

theorem acts_addConstraints (cs : List Con) (t : Tbl) (h0 : (cs.map conId).Nodup)
    (h : ∀ c ∈ cs, t.con (conId c) = none) :
    acts t (cs.map .addConstraint) = some { t with con := puts conId t.con cs } := by
  induction cs generalizing t with
  | nil => rfl
  | cons c cs ih =>
    obtain ⟨h1, h2⟩ := List.nodup_cons.1 h0
    rw [List.map_cons, acts_cons _ { t with con := put t.con (conId c) (some c) } _ _ (by
      simp [act, h c (by simp)])]
    rw [ih _ h2 (by
      intro m hm
      dsimp only
      rw [put_ne _ _ (by intro e; exact h1 (List.mem_map.2 ⟨m, hm, e⟩))]
      exact h m (by simp [hm]))]
    rw [puts_cons _ _ _ _ h1]

theorem acts_addIndexes (xs : List Idx) (t : Tbl) (h0 : (xs.map fun x => x.name).Nodup)
    (h : ∀ x ∈ xs, t.idx x.name = none) (hp : ∀ x ∈ xs, plainIdx x = x) :
    acts t (xs.map .addIndex) = some { t with idx := puts (fun x => x.name) t.idx xs } := by
  induction xs generalizing t with
  | nil => rfl
  | cons c cs ih =>
    obtain ⟨h1, h2⟩ := List.nodup_cons.1 h0
    rw [List.map_cons, acts_cons _ { t with idx := put t.idx c.name (some c) } _ _ (by
      simp [act, h c (by simp), hp c (by simp)])]
    rw [ih _ h2 (by
      intro m hm
      dsimp only
      rw [put_ne _ _ (by intro e; exact h1 (List.mem_map.2 ⟨m, hm, e⟩))]
      exact h m (by simp [hm])) (fun x hx => hp x (by simp [hx]))]
    rw [puts_cons _ _ _ _ h1]

end EngineSpec
