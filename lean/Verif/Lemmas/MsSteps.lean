import Verif.Spec.MsConverge
import Verif.Lemmas.PgPhases

/-!
# Statements for a table of a SQL Server database

A list of statements for a table changes one part of it after the other: `mix ns f g` is the part
between `f` and `g` where the changes for the names `ns` are still missing.
-/

namespace MsSpec
open SqlSpec Sqddl DdlText EngineSpec
open MsText (Act)
open PgSpec (withTable_self withTable_other withTable_eq put_put put_eq)

/-! ## Runs -/

theorem runs_append {N : Numbers} {db m db' : Db} {a b : List MsText.Stmt} (h1 : Runs N db a m)
    (h2 : Runs N m b db') : Runs N db (a ++ b) db' := by
  induction a generalizing db with
  | nil => cases h1; exact h2
  | cons x a ih => exact ⟨h1.1, ih h1.2⟩

theorem Runs.to {N : Numbers} {db a b : Db} {l : List MsText.Stmt} (h : Runs N db l a) (e : a = b) :
    Runs N db l b := e ▸ h

theorem runs_one {N : Numbers} {db db' : Db} {st : MsText.Stmt} (h : Accepts N db st)
    (e : effect db st = db') : Runs N db [st] db' := ⟨h, e⟩

theorem runs_flatMap {N : Numbers} {α : Type} (f : α → List MsText.Stmt) (P : List α → Db → Prop)
    (h : ∀ x xs db, P (x :: xs) db → ∃ db', Runs N db (f x) db' ∧ P xs db') :
    ∀ xs db, P xs db → ∃ db', Runs N db (xs.flatMap f) db' ∧ P [] db' := by
  intro xs
  induction xs with
  | nil => intro db hp; exact ⟨db, rfl, hp⟩
  | cons x xs ih =>
    intro db hp
    obtain ⟨m, h1, h2⟩ := h x xs db hp
    obtain ⟨db', h3, h4⟩ := ih m h2
    exact ⟨db', runs_append h1 h3, h4⟩

theorem map_flatMap {α β : Type} (g : α → β) (xs : List α) :
    xs.flatMap (fun x => [g x]) = xs.map g := by
  induction xs with
  | nil => rfl
  | cons x xs ih => rw [List.flatMap_cons, ih]; rfl

/-! ## One part after the other -/

/-- The part between `f` and `g` where the changes for these names are missing. -/
def mix {α : Type} (ns : List Str) (f g : Str → Option α) : Str → Option α :=
  fun n => if n ∈ ns then f n else g n

theorem mix_nil {α : Type} (f g : Str → Option α) : mix [] f g = g := by
  funext n; simp [mix]

theorem mix_all {α : Type} {ns : List Str} {f g : Str → Option α} (h : ∀ n, n ∉ ns → f n = g n) :
    mix ns f g = f := by
  funext n
  unfold mix
  split
  · rfl
  · rename_i h1; exact (h n h1).symm

theorem mix_put {α : Type} {n : Str} {ns : List Str} {f g : Str → Option α} (h : n ∉ ns) :
    put (mix (n :: ns) f g) n (g n) = mix ns f g := by
  funext m
  by_cases e : m = n
  · subst e; rw [put_self]; simp [mix, h]
  · rw [put_ne _ _ e]; simp [mix, e]

theorem mix_head {α : Type} {n : Str} {ns : List Str} {f g : Str → Option α} :
    mix (n :: ns) f g n = f n := by simp [mix]

theorem mix_or {α : Type} {n : Str} {ns : List Str} {f g : Str → Option α} {x : α}
    (h : mix ns f g n = some x) : f n = some x ∨ g n = some x := by
  unfold mix at h
  split at h
  · exact Or.inl h
  · exact Or.inr h

/-! ## Parts of ALTER TABLE -/

/-- The parts are not refused one after the other, and lead from one table to the other. -/
def Steps (db : Db) (k : Key) : Tbl → List Act → Tbl → Prop
  | t, [], t' => t = t'
  | t, a :: r, t' => Ok (db.withTable k t) k t a ∧ Steps db k (eff t a) r t'

theorem Steps.append {db : Db} {k : Key} {t m t' : Tbl} {a b : List Act} (h1 : Steps db k t a m)
    (h2 : Steps db k m b t') : Steps db k t (a ++ b) t' := by
  induction a generalizing t with
  | nil => cases h1; exact h2
  | cons x a ih => exact ⟨h1.1, ih h1.2⟩

theorem onTable_withTable (db : Db) (k : Key) (t : Tbl) (a : Act) :
    onTable (db.withTable k t) k a = db.withTable k (eff t a) := by
  unfold onTable
  rw [withTable_self]
  unfold Db.withTable
  rw [Option.map_some, put_put]

theorem changeTable_withTable (db : Db) (k : Key) (t : Tbl) (f : Tbl → Tbl) :
    changeTable (db.withTable k t) k f = db.withTable k (f t) := by
  unfold changeTable
  rw [withTable_self]
  unfold Db.withTable
  rw [Option.map_some, put_put]

theorem okAll_steps {db : Db} {k : Key} {t t' : Tbl} {as : List Act} (h : Steps db k t as t') :
    OkAll (db.withTable k t) k as ∧
      as.foldl (fun db a => onTable db k a) (db.withTable k t) = db.withTable k t' := by
  induction as generalizing t with
  | nil => cases h; exact ⟨by rw [OkAll, withTable_self]; rfl, rfl⟩
  | cons a r ih =>
    obtain ⟨h1, h2⟩ := ih h.2
    refine ⟨⟨⟨t, withTable_self _ _ _, h.1⟩, ?_⟩, ?_⟩
    · rw [onTable_withTable]; exact h1
    · rw [List.foldl_cons, onTable_withTable]; exact h2

/-- Each part is a statement. -/
theorem runs_steps {N : Numbers} {db : Db} {nm : DdlText.Name} {t t' : Tbl} {as : List Act}
    (h : Steps db (key nm) t as t') :
    Runs N (db.withTable (key nm) t) (as.map (MsText.Stmt.alter nm)) (db.withTable (key nm) t') := by
  induction as generalizing t with
  | nil => cases h; rfl
  | cons a r ih =>
    refine ⟨⟨t, withTable_self _ _ _, h.1⟩, ?_⟩
    show Runs N (onTable (db.withTable (key nm) t) (key nm) a) _ _
    rw [onTable_withTable]
    exact ih h.2

theorem steps_mix {db : Db} {k : Key} {α : Type} (act : α → Act) (nm : α → Str) (T : List Str → Tbl) :
    ∀ xs : List α, (xs.map nm).Nodup →
    (∀ y ∈ xs, ∀ ns, nm y ∉ ns → (∀ n ∈ ns, n ∈ xs.map nm) →
      Ok (db.withTable k (T (nm y :: ns))) k (T (nm y :: ns)) (act y) ∧
      eff (T (nm y :: ns)) (act y) = T ns) →
    Steps db k (T (xs.map nm)) (xs.map act) (T []) := by
  intro xs
  induction xs with
  | nil => intro _ _; rfl
  | cons x xs ih =>
    intro hnd h
    obtain ⟨h1, h2⟩ := List.nodup_cons.1 hnd
    obtain ⟨h3, h4⟩ := h x List.mem_cons_self (xs.map nm) h1 fun n hn => List.mem_cons_of_mem _ hn
    refine ⟨h3, ?_⟩
    show Steps db k (eff (T (nm x :: xs.map nm)) (act x)) (xs.map act) (T [])
    rw [h4]
    exact ih h2 fun y hy ns hn hs => h y (List.mem_cons_of_mem _ hy) ns hn
      fun n hn => List.mem_cons_of_mem _ (hs n hn)

theorem runs_mix {N : Numbers} {db : Db} {k : Key} {α : Type} (st : α → List MsText.Stmt)
    (nm : α → Str) (T : List Str → Tbl) :
    ∀ xs : List α, (xs.map nm).Nodup →
    (∀ y ∈ xs, ∀ ns, nm y ∉ ns → (∀ n ∈ ns, n ∈ xs.map nm) →
      Runs N (db.withTable k (T (nm y :: ns))) (st y) (db.withTable k (T ns))) →
    Runs N (db.withTable k (T (xs.map nm))) (xs.flatMap st) (db.withTable k (T [])) := by
  intro xs
  induction xs with
  | nil => intro _ _; rfl
  | cons x xs ih =>
    intro hnd h
    obtain ⟨h1, h2⟩ := List.nodup_cons.1 hnd
    have r := h x List.mem_cons_self (xs.map nm) h1 fun n hn => List.mem_cons_of_mem _ hn
    rw [List.flatMap_cons]
    exact runs_append r (ih h2 fun y hy ns hn hs => h y (List.mem_cons_of_mem _ hy) ns hn
      fun n hn => List.mem_cons_of_mem _ (hs n hn))

/-! ## States on the way -/

/-- A table on the way from `S` to `G`, after the surplus foreign keys are dropped and before the new
ones are added: what it has is in one of the versions, and its foreign keys are in both and are not
dropped and added again. -/
structure Fits (S G : Db) (R : Key → Str → Prop) (k : Key) (t : Tbl) : Prop where
  table : (S.table k).isSome ∨ (G.table k).isSome
  fk : ∀ n c cs ref, t.con n = some c → c.kind = .foreign cs ref →
    Foreign S k n cs ref ∧ Foreign G k n cs ref ∧ ¬ R k n
  con : ∀ n c, t.con n = some c →
    (∃ s, S.table k = some s ∧ s.con n = some c) ∨ ∃ g, G.table k = some g ∧ g.con n = some c
  idx : ∀ n x, t.idx n = some x →
    (∃ s, S.table k = some s ∧ s.idx n = some x) ∨ ∃ g, G.table k = some g ∧ g.idx n = some x
  col : ∀ n c, t.col n = some c → (HasCol S k n ∨ HasCol G k n) ∧
    (c.default.isSome → HasDefault S k n ∨ HasDefault G k n)

/-- A state on the way from `S` to `G`. -/
def Mid (S G : Db) (R : Key → Str → Prop) (db : Db) : Prop :=
  ∀ k t, db.table k = some t → Fits S G R k t

section
variable {S G : Db} {R : Key → Str → Prop}

theorem Fits.mixCon {k : Key} {t : Tbl} {g : Str → Option Con} (h1 : Fits S G R k t)
    (h2 : Fits S G R k { t with con := g }) (ns : List Str) :
    Fits S G R k { t with con := mix ns t.con g } where
  table := h1.table
  fk n c cs ref hc hk := (mix_or hc).elim (fun h => h1.fk n c cs ref h hk) fun h => h2.fk n c cs ref h hk
  con n c hc := (mix_or hc).elim (h1.con n c) (h2.con n c)
  idx := h1.idx
  col := h1.col

theorem Fits.mixIdx {k : Key} {t : Tbl} {g : Str → Option Idx} (h1 : Fits S G R k t)
    (h2 : Fits S G R k { t with idx := g }) (ns : List Str) :
    Fits S G R k { t with idx := mix ns t.idx g } where
  table := h1.table
  fk := h1.fk
  con := h1.con
  idx n c hc := (mix_or hc).elim (h1.idx n c) (h2.idx n c)
  col := h1.col

theorem Fits.mixCol {k : Key} {t : Tbl} {g : Str → Option Col} (h1 : Fits S G R k t)
    (h2 : Fits S G R k { t with col := g }) (ns : List Str) :
    Fits S G R k { t with col := mix ns t.col g } where
  table := h1.table
  fk := h1.fk
  con := h1.con
  idx := h1.idx
  col n c hc := (mix_or hc).elim (h1.col n c) (h2.col n c)

theorem Mid.withTable {db : Db} (h : Mid S G R db) {k : Key} {t : Tbl} (ht : Fits S G R k t) :
    Mid S G R (db.withTable k t) := by
  intro k' t' h1
  by_cases e : k' = k
  · subst e
    rw [withTable_self] at h1
    cases h1
    exact ht
  · rw [withTable_other _ e] at h1
    exact h k' t' h1

theorem object_iff {db : Db} {s n : Str} : Object db s n ↔ ∃ o, Has db s n o := by
  constructor
  · rintro (h | ⟨a, t, c, h1, h2⟩)
    · exact ⟨.table, h⟩
    · exact ⟨.con a, t, c, h1, h2⟩
  · rintro ⟨o, h⟩
    cases o with
    | table => exact Or.inl h
    | con a => obtain ⟨t, c, h1, h2⟩ := h; exact Or.inr ⟨a, t, c, h1, h2⟩

theorem Mid.has {db : Db} (h : Mid S G R db) {s n : Str} {o : Obj} (hh : Has db s n o) :
    Has S s n o ∨ Has G s n o := by
  cases o with
  | table =>
    obtain ⟨t, ht⟩ := hh
    rcases (h _ t ht).table with h1 | h1
    · exact Or.inl (Option.isSome_iff_exists.1 h1)
    · exact Or.inr (Option.isSome_iff_exists.1 h1)
  | con a =>
    obtain ⟨t, c, ht, hc⟩ := hh
    rcases (h _ t ht).con n c hc with ⟨s', h1, h2⟩ | ⟨s', h1, h2⟩
    · exact Or.inl ⟨s', c, h1, h2⟩
    · exact Or.inr ⟨s', c, h1, h2⟩

/-- What two versions of a database have to do with each other. -/
structure Between (S G : Db) : Prop where
  names : ∀ s n o o', Has S s n o → Has G s n o' → o = o'
  indexNames : ∀ k s t n, S.table k = some s → G.table k = some t →
    (∀ x c, s.idx n = some x → t.con n = some c → EngineSpec.isKey c = false) ∧
    ∀ x c, t.idx n = some x → s.con n = some c → EngineSpec.isKey c = false

variable (hG : Consistent G) (hp : Between S G)

include hG hp in
/-- The name of an object of the new version that does not exist yet is free. -/
theorem Mid.free {db : Db} (h : Mid S G R db) {s n : Str} {o : Obj} (hg : Has G s n o)
    (hn : ¬ Has db s n o) : ¬ Object db s n := by
  rw [object_iff]
  rintro ⟨o', ho⟩
  have : o' = o := by
    rcases h.has ho with h1 | h1
    · exact hp.names s n o' o h1 hg
    · exact hG.names s n o' o h1 hg
  subst this
  exact hn ho

include hG in
/-- What a foreign key of such a state references is in the new version. -/
theorem Mid.target {db : Db} (h : Mid S G R db) {k : Key} {t : Tbl} {n : Str} {c : Con}
    {cs : List Str} {ref : Ref} (ht : db.table k = some t) (hc : t.con n = some c)
    (hk : c.kind = .foreign cs ref) : Target G cs ref :=
  hG.fkey k n cs ref ((h k t ht).fk n c cs ref hc hk).2.1

/-- The columns are not those of a foreign key that stays. -/
def Free (S G : Db) (R : Key → Str → Prop) (k : Key) (cols : List Str) : Prop :=
  ∀ k' m cs ref, Foreign S k' m cs ref → Foreign G k' m cs ref → ¬ R k' m → key ref.table = k →
    ¬ ref.cols.Perm cols

theorem Free.not {db : Db} {k : Key} {cols : List Str} (hf : Free S G R k cols) (h : Mid S G R db) :
    ¬ Referenced db k cols := by
  rintro ⟨k', t, n, c, cs, ref, h1, h2, h3, h4, h5⟩
  obtain ⟨a, b, r⟩ := (h k' t h1).fk n c cs ref h2 h3
  exact hf k' n cs ref a b r h4 h5

/-! ## Columns, constraints and indexes are added -/

section
variable {db : Db} {k : Key}

theorem steps_addColumns {t : Tbl} {g : Str → Option Col} (xs : List Col)
    (hnd : (xs.map fun c => c.name).Nodup)
    (h : ∀ c ∈ xs, t.col c.name = none ∧ g c.name = some c ∧ addable c = true ∧
      (c.identity.isSome → ∀ m d, t.col m = some d ∨ g m = some d → m ≠ c.name → d.identity = none))
    (ho : ∀ n, n ∉ xs.map (fun c => c.name) → t.col n = g n) :
    Steps db k t (xs.map .addColumn) { t with col := g } := by
  have := steps_mix (db := db) (k := k) Act.addColumn (fun c => c.name)
    (fun ns => { t with col := mix ns t.col g }) xs hnd (by
      intro c hc ns hn hs
      obtain ⟨h1, h2, h3, h4⟩ := h c hc
      refine ⟨⟨?_, h3, ?_⟩, ?_⟩
      · show mix (c.name :: ns) t.col g c.name = none
        rw [mix_head]; exact h1
      · intro hi m d hd
        have hd : mix (c.name :: ns) t.col g m = some d := hd
        by_cases e : m = c.name
        · subst e; rw [mix_head, h1] at hd; cases hd
        · exact h4 hi m d (mix_or hd) e
      · show ({ t with col := put (mix (c.name :: ns) t.col g) c.name (some c) } : Tbl) = _
        rw [← h2, mix_put hn])
  rw [mix_nil, mix_all ho] at this
  exact this

variable {u : Tbl} (hm : Mid S G R db) (hu : G.table k = some u)

include hG hp hm hu in
theorem steps_addConstraints {t : Tbl} {g : Str → Option Con} (hf1 : Fits S G R k t)
    (hf2 : Fits S G R k { t with con := g }) (hcol : ∀ n, (u.col n).isSome → (t.col n).isSome)
    (xs : List Con) (hnd : (xs.map fun c => c.name.getD []).Nodup)
    (h : ∀ c ∈ xs, t.con (c.name.getD []) = none ∧ g (c.name.getD []) = some c ∧
      u.con (c.name.getD []) = some c ∧ isF c = false ∧ (∀ a b p, c.kind ≠ .exclude a b p) ∧
      ∀ cs, c.kind = .primary cs →
        (∀ m d ds, t.con m = some d ∨ g m = some d → d.kind = .primary ds → m = c.name.getD []) ∧
        ∀ x ∈ cs, ∀ d, t.col x = some d → d.notNull = true)
    (ho : ∀ n, n ∉ xs.map (fun c => c.name.getD []) → t.con n = g n) :
    Steps db k t (xs.map .addConstraint) { t with con := g } := by
  have := steps_mix (db := db) (k := k) Act.addConstraint (fun c => c.name.getD [])
    (fun ns => { t with con := mix ns t.con g }) xs hnd (by
      intro c hc ns hn hs
      obtain ⟨h1, h2, h3, h4, h5, h6⟩ := h c hc
      have hname := hG.named k u _ c hu h3
      have hM := hm.withTable (hf1.mixCon hf2 (c.name.getD [] :: ns))
      refine ⟨⟨⟨_, hname, ?_, ?_⟩, ?_, ?_, ?_, h5⟩, ?_⟩
      · refine hM.free hG hp (o := .con k.2) ⟨u, c, hu, h3⟩ ?_
        rintro ⟨t', d, h7, h8⟩
        rw [show ((k.1, k.2) : Key) = k from rfl, withTable_self] at h7
        cases h7
        have h8 : mix (c.name.getD [] :: ns) t.con g (c.name.getD []) = some d := h8
        rw [mix_head, h1] at h8; cases h8
      · intro hk
        show t.idx (c.name.getD []) = none
        cases hx : t.idx (c.name.getD []) with
        | none => rfl
        | some x =>
          exfalso
          have : EngineSpec.isKey c = false := by
            rcases hf1.idx _ x hx with ⟨s, h7, h8⟩ | ⟨s, h7, h8⟩
            · exact (hp.indexNames k s u _ h7 hu).1 x c h8 h3
            · rw [hu] at h7; cases h7
              exact hG.keys k u _ c x hu h3 h8
          rw [hk] at this; cases this
      · exact fun x hx => hcol x (hG.con k u _ c hu h3 x hx)
      · intro cs hk
        obtain ⟨h7, h8⟩ := h6 cs hk
        refine ⟨fun n d ds hd hd2 => ?_, h8⟩
        have hd : mix (c.name.getD [] :: ns) t.con g n = some d := hd
        have := h7 n d ds (mix_or hd) hd2
        subst this
        rw [mix_head, h1] at hd; cases hd
      · intro ps ref hk
        rw [(isF_iff c).2 ⟨ps, ref, hk⟩] at h4; cases h4
      · show ({ t with con := put (mix (c.name.getD [] :: ns) t.con g) (c.name.getD []) (some c) } : Tbl) = _
        rw [← h2, mix_put hn])
  rw [mix_nil, mix_all ho] at this
  exact this

include hG hp hu in
theorem runs_createIndexes {N : Numbers} {t : Tbl} {g : Str → Option Idx} (hf1 : Fits S G R k t)
    (hcol : ∀ n, (u.col n).isSome → (t.col n).isSome)
    (xs : List Idx) (hnd : (xs.map fun x => x.name).Nodup)
    (h : ∀ x ∈ xs, (∃ nm, x.table = some nm ∧ key nm = k) ∧ t.idx x.name = none ∧
      g x.name = some (plainIdx x) ∧ u.idx x.name = some (plainIdx x))
    (ho : ∀ n, n ∉ xs.map (fun x => x.name) → t.idx n = g n) :
    Runs N (db.withTable k t) (xs.map fun x => .base (.createIndex x))
      (db.withTable k { t with idx := g }) := by
  have := runs_mix (N := N) (db := db) (k := k) (fun x : Idx => [MsText.Stmt.base (.createIndex x)])
    (fun x => x.name) (fun ns => { t with idx := mix ns t.idx g }) xs hnd (by
      intro x hx ns hn hs
      obtain ⟨⟨nm, h1, rfl⟩, h2, h3, h4⟩ := h x hx
      obtain ⟨h5, h6⟩ := hG.idx _ u _ _ hu h4
      refine runs_one ⟨nm, _, h1, withTable_self _ _ _, ?_, ?_, ?_, h6⟩ ?_
      · show mix (x.name :: ns) t.idx g x.name = none
        rw [mix_head]; exact h2
      · intro c hc
        rcases hf1.con _ c hc with ⟨s, h7, h8⟩ | ⟨s, h7, h8⟩
        · exact (hp.indexNames _ s u _ h7 hu).2 _ c h4 h8
        · rw [hu] at h7; cases h7
          exact hG.keys _ u _ c _ hu h8 h4
      · exact fun y hy => hcol y (h5 y hy)
      · simp only [effect, h1]
        rw [changeTable_withTable]
        rw [← h3, mix_put hn])
  rw [mix_nil, mix_all ho] at this
  rw [← map_flatMap]
  exact this

/-! ## Columns, constraints and indexes are dropped -/

include hm in
theorem runs_dropIndexes {N : Numbers} {t : Tbl} {g : Str → Option Idx} (hf1 : Fits S G R k t)
    (hf2 : Fits S G R k { t with idx := g }) {α : Type} (cn : α → Str) (nm : α → DdlText.Name)
    (xs : List α) (hnd : (xs.map cn).Nodup)
    (h : ∀ x ∈ xs, key (nm x) = k ∧ g (cn x) = none ∧ ∃ y, t.idx (cn x) = some y ∧
      (y.unique = true → Free S G R k (idxNames y)))
    (ho : ∀ n, n ∉ xs.map cn → t.idx n = g n) :
    Runs N (db.withTable k t) (xs.map fun x => .dropIndex (cn x) (nm x))
      (db.withTable k { t with idx := g }) := by
  have := runs_mix (N := N) (db := db) (k := k) (fun x => [MsText.Stmt.dropIndex (cn x) (nm x)])
    cn (fun ns => { t with idx := mix ns t.idx g }) xs hnd (by
      intro x hx ns hn hs
      obtain ⟨h1, h2, y, h3, h4⟩ := h x hx
      have hM := hm.withTable (hf1.mixIdx hf2 (cn x :: ns))
      refine runs_one ⟨_, y, by rw [h1]; exact withTable_self _ _ _, ?_, ?_⟩ ?_
      · show mix (cn x :: ns) t.idx g (cn x) = some y
        rw [mix_head]; exact h3
      · intro hy
        rw [h1]
        exact (h4 hy).not hM
      · simp only [effect, h1]
        rw [changeTable_withTable, ← h2, mix_put hn])
  rw [mix_nil, mix_all ho] at this
  rw [← map_flatMap]
  exact this

include hm in
theorem steps_dropConstraints {t : Tbl} {g : Str → Option Con} (hf1 : Fits S G R k t)
    (hf2 : Fits S G R k { t with con := g }) (xs : List Str) (hnd : xs.Nodup)
    (h : ∀ n ∈ xs, g n = none ∧ ∃ c, t.con n = some c ∧
      ∀ cols, c.kind = .primary cols ∨ c.kind = .unique cols → Free S G R k cols)
    (ho : ∀ n, n ∉ xs → t.con n = g n) :
    Steps db k t (xs.map .dropConstraint) { t with con := g } := by
  have := steps_mix (db := db) (k := k) Act.dropConstraint id
    (fun ns => { t with con := mix ns t.con g }) xs (by simpa using hnd) (by
      intro n hx ns hn hs
      obtain ⟨h1, c, h2, h3⟩ := h n hx
      have hM := hm.withTable (hf1.mixCon hf2 (n :: ns))
      refine ⟨⟨c, ?_, fun cols hk => (h3 cols hk).not hM⟩, ?_⟩
      · show mix (n :: ns) t.con g n = some c
        rw [mix_head]; exact h2
      · show ({ t with con := put (mix (n :: ns) t.con g) n none } : Tbl) = _
        rw [← h1, mix_put (show n ∉ ns from hn)])
  rw [List.map_id, mix_nil, mix_all ho] at this
  exact this

theorem steps_dropColumns {t : Tbl} {g : Str → Option Col} (xs : List Str) (hnd : xs.Nodup)
    (h : ∀ n ∈ xs, g n = none ∧ (∃ c, t.col n = some c ∧ c.default = none) ∧ Unused t n)
    (hr : xs ≠ [] → ∃ m, m ∉ xs ∧ (t.col m).isSome)
    (ho : ∀ n, n ∉ xs → t.col n = g n) :
    Steps db k t (xs.map .dropColumn) { t with col := g } := by
  have := steps_mix (db := db) (k := k) Act.dropColumn id
    (fun ns => { t with col := mix ns t.col g }) xs (by simpa using hnd) (by
      intro n hx ns hn hs
      obtain ⟨h1, ⟨c, h2, h3⟩, h4⟩ := h n hx
      obtain ⟨m, h5, h6⟩ := hr (by intro e; rw [e] at hx; cases hx)
      refine ⟨⟨⟨c, ?_, h3⟩, ⟨h4.con, h4.idx, ?_⟩, m, ?_, ?_⟩, ?_⟩
      · show mix (n :: ns) t.col g n = some c
        rw [mix_head]; exact h2
      · intro m d hd hne
        have hd : mix (n :: ns) t.col g m = some d := hd
        refine h4.col m d ?_ hne
        rcases mix_or hd with h7 | h7
        · exact h7
        · by_cases e : m ∈ xs
          · rw [(h m e).1] at h7; cases h7
          · rw [ho m e]; exact h7
      · rintro rfl; exact h5 hx
      · show (mix (n :: ns) t.col g m).isSome
        unfold mix
        split
        · exact h6
        · rw [← ho m h5]; exact h6
      · show ({ t with col := put (mix (n :: ns) t.col g) n none } : Tbl) = _
        rw [← h1, mix_put (show n ∉ ns from hn)])
  rw [List.map_id, mix_nil, mix_all ho] at this
  exact this

end

end

end MsSpec
