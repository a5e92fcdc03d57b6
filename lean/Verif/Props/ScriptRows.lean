import Verif.Model.ScriptRows
import Verif.Spec.ScriptRows

/-!
# C109: the scripts report the objects that are not the database's own

`sqddl wipe` drops, `dump` writes and `generate` compares what the introspection scripts report.
-/

namespace Sqddl.Scripts
open OwnSpec

/-! ## `LIKE` -/

theorem ends_nil (s : Str) : [] ∈ ends s := by
  induction s with
  | nil => exact List.mem_singleton.mpr rfl
  | cons c s ih => exact List.mem_cons_of_mem _ ih

theorem like_all (fold : Char → Char) (s : Str) : like fold b!"%" s = true := by
  unfold like
  rw [if_pos rfl, List.any_eq_true]
  exact ⟨[], ends_nil s, rfl⟩

theorem like_lit (fold : Char → Char) {lit : Str} (h : '%' ∉ lit ∧ '_' ∉ lit) (p s : Str) :
    like fold (lit ++ p) s = true ↔
      lit.length ≤ s.length ∧ (s.take lit.length).map fold = lit.map fold ∧
        like fold p (s.drop lit.length) = true := by
  induction lit generalizing s with
  | nil => simp
  | cons x lit ih =>
    have hx1 : x ≠ '%' := fun e => h.1 (by rw [e]; exact List.mem_cons_self ..)
    have hx2 : x ≠ '_' := fun e => h.2 (by rw [e]; exact List.mem_cons_self ..)
    have hl : '%' ∉ lit ∧ '_' ∉ lit :=
      ⟨fun e => h.1 (List.mem_cons_of_mem _ e), fun e => h.2 (List.mem_cons_of_mem _ e)⟩
    rw [List.cons_append, like]
    dsimp only
    rw [if_neg hx1]
    cases s with
    | nil => simp
    | cons c r =>
      dsimp only
      rw [Bool.and_eq_true, ih hl r]
      have hb : (x == '_' || fold x == fold c) = true ↔ fold c = fold x := by
        have : (x == '_') = false := by simpa using hx2
        rw [this, Bool.false_or, beq_iff_eq]
        exact eq_comm
      rw [hb]
      simp only [List.length_cons, List.take_succ_cons, List.drop_succ_cons, List.map_cons,
        List.cons.injEq]
      constructor
      · rintro ⟨h1, h2, h3, h4⟩; exact ⟨by omega, ⟨h1, h3⟩, h4⟩
      · rintro ⟨h1, ⟨h2, h3⟩, h4⟩; exact ⟨h2, by omega, h3, h4⟩

/-- `lit_%`: the text and at least one more character -/
theorem like_more (fold : Char → Char) {lit : Str} (h : '%' ∉ lit ∧ '_' ∉ lit) (s : Str) :
    like fold (lit ++ b!"_%") s = true ↔
      lit.length < s.length ∧ (s.take lit.length).map fold = lit.map fold := by
  rw [like_lit fold h]
  have hd : like fold b!"_%" (s.drop lit.length) = true ↔ lit.length < s.length := by
    rw [like]
    dsimp only
    rw [if_neg (by decide)]
    cases hs : s.drop lit.length with
    | nil =>
      have := List.drop_eq_nil_iff.mp hs
      constructor
      · intro h; cases h
      · intro h; omega
    | cons c r =>
      have : s.drop lit.length ≠ [] := by rw [hs]; simp
      rw [ne_eq, List.drop_eq_nil_iff] at this
      dsimp only
      rw [like_all]
      simp
      omega
  rw [hd]
  constructor
  · rintro ⟨_, h2, h3⟩; exact ⟨h3, h2⟩
  · rintro ⟨h1, h2⟩; exact ⟨by omega, h2, h1⟩

/-- `lit%`: the text and anything -/
theorem like_prefix (fold : Char → Char) {lit : Str} (h : '%' ∉ lit ∧ '_' ∉ lit) (s : Str) :
    like fold (lit ++ b!"%") s = true ↔
      lit.length ≤ s.length ∧ (s.take lit.length).map fold = lit.map fold := by
  rw [like_lit fold h, like_all]
  simp

/-! ## Filters -/

/-- not both a list of names to include and one of names to exclude -/
def OneOf (incl excl : List Str) : Prop := incl = [] ∨ excl = []

theorem passes_iff {incl excl : List Str} (h : OneOf incl excl) (x : Str) :
    passes incl excl x = true ↔ Wanted incl excl x := by
  unfold passes Wanted
  by_cases h1 : incl = []
  · rw [if_neg (by simpa using h1)]
    by_cases h2 : excl = []
    · rw [if_neg (by simpa using h2)]
      simp [h1, h2]
    · rw [if_pos h2]
      simp [h1]
  · rw [if_pos h1]
    rcases h with h | h
    · exact absurd h h1
    · simp [h1, h]

/-! ## Postgres -/

theorem pgLike_iff (s : Str) : like id b!"pg_%" s = true ↔ 2 < s.length ∧ s.take 2 = b!"pg" := by
  have := like_more id (lit := b!"pg") (by decide) s
  simpa using this

theorem pgOwn_like {s : Str} (h : b!"pg_" <+: s) : like id b!"pg_%" s = true := by
  rw [pgLike_iff]
  obtain ⟨t, rfl⟩ := h
  simp

/-- schemas that begin with pg begin with pg_ -/
def PlainSchema (s : Str) : Prop := s.take 2 = b!"pg" → s.length ≤ 2 ∨ b!"pg_" <+: s

theorem pgShown_iff {f : Filter} (hf : OneOf f.schemas f.excludeSchemas) {s : Str} (hs : PlainSchema s) :
    pgShown f s = true ↔
      (f.system = true ∨ ¬ PgOwn s) ∧ Wanted f.schemas f.excludeSchemas s := by
  unfold pgShown
  rw [Bool.and_eq_true, passes_iff hf]
  refine and_congr ?_ Iff.rfl
  rw [Bool.or_eq_true]
  refine or_congr Iff.rfl ?_
  rw [Bool.and_eq_true]
  unfold PgOwn
  constructor
  · rintro ⟨h1, h2⟩ (h | h)
    · simp [h] at h1
    · rw [pgOwn_like h] at h2; cases h2
  · intro h
    refine ⟨by simpa using fun e => h (.inl e), ?_⟩
    by_cases hl : like id b!"pg_%" s = true
    · obtain ⟨h1, h2⟩ := (pgLike_iff s).mp hl
      rcases hs h2 with h3 | h3
      · omega
      · exact absurd (.inr h3) h
    · simpa using hl

/-- the comment on a table -/
def IsComment (c : PgTables) (oid : Nat) (text : Str) : Prop :=
  (∃ d ∈ c.descriptions, d.objoid = oid ∧ d.classoid = pgClassOid ∧ d.objsubid = 0 ∧ d.description = text) ∨
  ((∀ d ∈ c.descriptions, ¬ (d.objoid = oid ∧ d.classoid = pgClassOid ∧ d.objsubid = 0)) ∧ text = [])

theorem pgComments_iff {c : PgTables} {oid : Nat} {text : Str}
    (h : ∀ d ∈ c.descriptions, d.objoid = oid → d.classoid = pgClassOid ∧ d.objsubid = 0) :
    text ∈ pgComments c oid ↔ IsComment c oid text := by
  unfold pgComments IsComment
  cases hf : c.descriptions.filter (fun d => d.objoid == oid) with
  | nil =>
    rw [List.filter_eq_nil_iff] at hf
    have none_ : ∀ d ∈ c.descriptions, d.objoid ≠ oid := fun d hd => by simpa using hf d hd
    dsimp only
    rw [List.mem_singleton]
    constructor
    · intro e; exact .inr ⟨fun d hd h' => none_ d hd h'.1, e⟩
    · rintro (⟨d, hd, h', _⟩ | ⟨_, e⟩)
      · exact absurd h' (none_ d hd)
      · exact e
  | cons x xs =>
    have mem : ∀ d, d ∈ x :: xs ↔ d ∈ c.descriptions ∧ d.objoid = oid := by
      intro d; rw [← hf, List.mem_filter]; simp
    dsimp only
    rw [List.mem_map]
    constructor
    · rintro ⟨d, hd, rfl⟩
      obtain ⟨h1, h2⟩ := (mem d).mp hd
      obtain ⟨h3, h4⟩ := h d h1 h2
      exact .inl ⟨d, h1, h2, h3, h4, rfl⟩
    · rintro (⟨d, hd, h1, _, _, e⟩ | ⟨hn, _⟩)
      · exact ⟨d, (mem d).mpr ⟨hd, h1⟩, e⟩
      · obtain ⟨h1, h2⟩ := (mem x).mp (List.mem_cons_self ..)
        obtain ⟨h3, h4⟩ := h x h1 h2
        exact absurd ⟨h2, h3, h4⟩ (hn x h1)

/-- C109: the tables of Postgres that are reported are the tables in schemas that are not its own,
each with its comment, if no column has a comment and no schema begins with pg but not with pg_. -/
theorem pg_tables_partial {f : Filter} {c : PgTables} (hf : OneOf f.schemas f.excludeSchemas)
    (ht : OneOf f.tables f.excludeTables) (hs : ∀ n ∈ c.namespaces, PlainSchema n.nspname)
    (hd : ∀ d ∈ c.descriptions, ∀ t ∈ c.classes, d.objoid = t.oid → d.classoid = pgClassOid ∧ d.objsubid = 0)
    (s t text : Str) :
    (s, t, text) ∈ pgTables f c ↔
      ∃ x ∈ c.classes, ∃ n ∈ c.namespaces, x.relnamespace = n.oid ∧ x.relkind = 'r' ∧ n.nspname = s ∧
        x.relname = t ∧ (f.system = true ∨ ¬ PgOwn s) ∧ Wanted f.schemas f.excludeSchemas s ∧
        Wanted f.tables f.excludeTables t ∧ IsComment c x.oid text := by
  unfold pgTables
  simp only [List.mem_flatMap]
  constructor
  · rintro ⟨x, hx, n, hn, hm⟩
    by_cases hc : (n.oid == x.relnamespace && x.relkind == 'r' && pgShown f n.nspname &&
        passes f.tables f.excludeTables x.relname) = true
    · rw [if_pos hc, List.mem_map] at hm
      obtain ⟨d, hd', e⟩ := hm
      cases e
      simp only [Bool.and_eq_true, beq_iff_eq] at hc
      obtain ⟨⟨⟨h1, h2⟩, h3⟩, h4⟩ := hc
      obtain ⟨h5, h6⟩ := (pgShown_iff hf (hs n hn)).mp h3
      exact ⟨x, hx, n, hn, h1.symm, h2, rfl, rfl, h5, h6, (passes_iff ht _).mp h4,
        (pgComments_iff (fun d h e => hd d h x hx e)).mp hd'⟩
    · rw [if_neg hc] at hm; cases hm
  · rintro ⟨x, hx, n, hn, h1, h2, rfl, rfl, h5, h6, h7, h8⟩
    refine ⟨x, hx, n, hn, ?_⟩
    rw [if_pos (by
      simp only [Bool.and_eq_true, beq_iff_eq]
      exact ⟨⟨⟨h1.symm, h2⟩, (pgShown_iff hf (hs n hn)).mpr ⟨h5, h6⟩⟩, (passes_iff ht _).mpr h7⟩)]
    exact List.mem_map.mpr ⟨text, (pgComments_iff (fun d h e => hd d h x hx e)).mpr h8, rfl⟩

/-- C109: the indexes of Postgres that are reported are those that were not made for a constraint, if
no constraint has the name of another index. -/
theorem pg_indexes_partial {f : Filter} {c : PgTables} (hf : OneOf f.schemas f.excludeSchemas)
    (ht : OneOf f.tables f.excludeTables) (hs : ∀ n ∈ c.namespaces, PlainSchema n.nspname)
    (hk : ∀ x ∈ c.indexes, ∀ i ∈ c.classes, i.oid = x.indexrelid → ∀ k ∈ c.constraints,
      k.conname = i.relname ↔ k.made = some x.indexrelid) (s t name : Str) :
    (s, t, name) ∈ pgIndexes f c ↔
      ∃ x ∈ c.indexes, ∃ i ∈ c.classes, ∃ y ∈ c.classes, ∃ n ∈ c.namespaces,
        i.oid = x.indexrelid ∧ y.oid = x.indrelid ∧ y.relnamespace = n.oid ∧ n.nspname = s ∧
        y.relname = t ∧ i.relname = name ∧ (∀ k ∈ c.constraints, k.made ≠ some x.indexrelid) ∧
        (f.system = true ∨ ¬ PgOwn s) ∧ Wanted f.schemas f.excludeSchemas s ∧
        Wanted f.tables f.excludeTables t := by
  unfold pgIndexes
  simp only [List.mem_flatMap]
  constructor
  · rintro ⟨x, hx, i, hi, y, hy, n, hn, hm⟩
    by_cases hc : (i.oid == x.indexrelid && y.oid == x.indrelid && n.oid == y.relnamespace &&
          !c.constraints.any (fun k => k.conname == i.relname) && pgShown f n.nspname &&
          passes f.tables f.excludeTables y.relname) = true
    · rw [if_pos hc, List.mem_singleton] at hm
      cases hm
      simp only [Bool.and_eq_true, beq_iff_eq, Bool.not_eq_true'] at hc
      obtain ⟨⟨⟨⟨⟨h1, h2⟩, h3⟩, h4⟩, h5⟩, h6⟩ := hc
      obtain ⟨h7, h8⟩ := (pgShown_iff hf (hs n hn)).mp h5
      refine ⟨x, hx, i, hi, y, hy, n, hn, h1, h2, h3.symm, rfl, rfl, rfl, ?_, h7, h8,
        (passes_iff ht _).mp h6⟩
      intro k hk' e
      rw [List.any_eq_false] at h4
      exact h4 k hk' (by simpa using (hk x hx i hi h1 k hk').mpr e)
    · rw [if_neg hc] at hm; cases hm
  · rintro ⟨x, hx, i, hi, y, hy, n, hn, h1, h2, h3, rfl, rfl, rfl, h4, h7, h8, h9⟩
    refine ⟨x, hx, i, hi, y, hy, n, hn, ?_⟩
    rw [if_pos]
    · exact List.mem_singleton.mpr rfl
    · simp only [Bool.and_eq_true, beq_iff_eq, Bool.not_eq_true']
      refine ⟨⟨⟨⟨⟨h1, h2⟩, h3.symm⟩, ?_⟩, (pgShown_iff hf (hs n hn)).mpr ⟨h7, h8⟩⟩, (passes_iff ht _).mpr h9⟩
      rw [List.any_eq_false]
      intro k hk' e
      exact h4 k hk' ((hk x hx i hi h1 k hk').mp (by simpa using e))

/-! ## MySQL -/

theorem myShown_iff {f : Filter} (hf : OneOf f.schemas f.excludeSchemas) (s : Str) :
    myShown f s = true ↔ (f.system = true ∨ ¬ MyOwn s) ∧ Wanted f.schemas f.excludeSchemas s := by
  unfold myShown MyOwn
  rw [Bool.and_eq_true, passes_iff hf, Bool.or_eq_true]
  simp

/-- C109: the tables of MySQL that are reported are the tables in databases that are not its own,
each with its comment. -/
theorem mysql_tables {f : Filter} (c : MyTables) (hf : OneOf f.schemas f.excludeSchemas)
    (ht : OneOf f.tables f.excludeTables) (s t text : Str) :
    (s, t, text) ∈ myTables f c ↔
      (s, t, b!"BASE TABLE", text) ∈ c.tables ∧ (f.system = true ∨ ¬ MyOwn s) ∧
        Wanted f.schemas f.excludeSchemas s ∧ Wanted f.tables f.excludeTables t := by
  unfold myTables
  rw [List.mem_filterMap]
  constructor
  · rintro ⟨⟨s', t', ty, c'⟩, hm, he⟩
    dsimp only at he
    by_cases hc : (ty == b!"BASE TABLE" && myShown f s' && passes f.tables f.excludeTables t') = true
    · rw [if_pos hc] at he
      cases he
      simp only [Bool.and_eq_true, beq_iff_eq] at hc
      obtain ⟨⟨rfl, h2⟩, h3⟩ := hc
      obtain ⟨h4, h5⟩ := (myShown_iff hf _).mp h2
      exact ⟨hm, h4, h5, (passes_iff ht _).mp h3⟩
    · rw [if_neg hc] at he; cases he
  · rintro ⟨hm, h4, h5, h6⟩
    refine ⟨_, hm, ?_⟩
    dsimp only
    rw [if_pos (by
      simp only [Bool.and_eq_true, beq_iff_eq]
      exact ⟨⟨trivial, (myShown_iff hf _).mpr ⟨h4, h5⟩⟩, (passes_iff ht _).mpr h6⟩)]

/-- C109: the indexes of MySQL that are reported are those for which the table has no constraint of
the same name, if no other table has one. -/
theorem mysql_indexes_partial {f : Filter} (c : MyTables) (hf : OneOf f.schemas f.excludeSchemas)
    (ht : OneOf f.tables f.excludeTables)
    (hk : ∀ i ∈ c.statistics, ∀ k ∈ c.constraints, k.2.2 = i.2.2 → k.1 = i.1 ∧ k.2.1 = i.2.1)
    (s t name : Str) :
    (s, t, name) ∈ myIndexes f c ↔
      (s, t, name) ∈ c.statistics ∧ (s, t, name) ∉ c.constraints ∧ (f.system = true ∨ ¬ MyOwn s) ∧
        Wanted f.schemas f.excludeSchemas s ∧ Wanted f.tables f.excludeTables t := by
  unfold myIndexes
  rw [List.mem_filter]
  simp only [Bool.and_eq_true, Bool.not_eq_true', List.any_eq_false, beq_iff_eq, myShown_iff hf,
    passes_iff ht]
  constructor
  · rintro ⟨hm, ⟨h1, h2, h3⟩, h4⟩
    exact ⟨hm, fun hk' => h1 _ hk' rfl, h2, h3, h4⟩
  · rintro ⟨hm, h1, h2, h3, h4⟩
    refine ⟨hm, ⟨?_, h2, h3⟩, h4⟩
    rintro ⟨s', t', n'⟩ hk' e
    dsimp only at e
    subst e
    obtain ⟨e1, e2⟩ := hk _ hm _ hk' rfl
    dsimp only at e1 e2
    subst e1 e2
    exact h1 hk'

/-- C109: the routines of MySQL that are reported are those in databases that are not its own, if all
have parameters or a result. -/
theorem mysql_routines_partial {f : Filter} (c : MyTables) (hf : OneOf f.schemas f.excludeSchemas)
    (ht : OneOf f.routines f.excludeRoutines) (hp : ∀ r ∈ c.routines, r ∈ c.parameters) (s name : Str) :
    (s, name) ∈ myRoutines f c ↔
      (s, name) ∈ c.routines ∧ (f.system = true ∨ ¬ MyOwn s) ∧ Wanted f.schemas f.excludeSchemas s ∧
        Wanted f.routines f.excludeRoutines name := by
  unfold myRoutines
  rw [List.mem_filter]
  simp only [Bool.and_eq_true, List.any_eq_true, beq_iff_eq, myShown_iff hf, passes_iff ht]
  constructor
  · rintro ⟨hm, ⟨_, h2, h3⟩, h4⟩
    exact ⟨hm, h2, h3, h4⟩
  · rintro ⟨hm, h2, h3, h4⟩
    exact ⟨hm, ⟨⟨(s, name), hp _ hm, rfl, rfl⟩, h2, h3⟩, h4⟩

/-! ## SQLite -/

theorem liteLike_iff (s : Str) :
    like Go.lowerC b!"sqlite_%" s = true ↔ 6 < s.length ∧ (s.take 6).map Go.lowerC = b!"sqlite" := by
  have := like_more Go.lowerC (lit := b!"sqlite") (by decide) s
  have e : (b!"sqlite").map Go.lowerC = b!"sqlite" := by decide
  rw [e] at this
  exact this

theorem liteOwn_like {s : Str} (h : LiteOwn s) : like Go.lowerC b!"sqlite_%" s = true := by
  rw [liteLike_iff]
  obtain ⟨t, ht⟩ := h
  constructor
  · have := congrArg List.length ht
    simp at this
    omega
  · rw [List.map_take, ← ht]
    rfl

/-- names that begin with sqlite begin with sqlite_ -/
def PlainTable (s : Str) : Prop := (s.take 6).map Go.lowerC = b!"sqlite" → s.length ≤ 6 ∨ LiteOwn s

theorem notLite_iff {s : Str} (h : PlainTable s) : like Go.lowerC b!"sqlite_%" s = false ↔ ¬ LiteOwn s := by
  constructor
  · intro h1 h2
    rw [liteOwn_like h2] at h1
    cases h1
  · intro h1
    by_cases hl : like Go.lowerC b!"sqlite_%" s = true
    · obtain ⟨h2, h3⟩ := (liteLike_iff s).mp hl
      rcases h h3 with h4 | h4
      · omega
      · exact absurd h4 h1
    · simpa using hl

/-- C109: the tables of SQLite (3.37 and later) that are reported are the ordinary and virtual tables
that are not its own, without the tables behind virtual tables, if no name begins with sqlite but not
with sqlite_. -/
theorem sqlite_tables_partial {f : Filter} {c : LiteTables} (hsys : f.system = false)
    (ht : OneOf f.tables f.excludeTables) (hn : ∀ m ∈ c.rows, PlainTable m.tblName) (t : Str) :
    t ∈ liteTables false f c ↔
      (∃ m ∈ c.rows, m.type = b!"table" ∧ m.tblName = t) ∧ ¬ LiteOwn t ∧
        ((b!"main", t, b!"table") ∈ c.tableList ∨ (b!"main", t, b!"virtual") ∈ c.tableList) ∧
        Wanted f.tables f.excludeTables t := by
  have listed : ∀ t, c.tableList.any (fun x => (x.2.2 == b!"table" || x.2.2 == b!"virtual") &&
      x.1 == b!"main" && x.2.1 == t) = true ↔
      ((b!"main", t, b!"table") ∈ c.tableList ∨ (b!"main", t, b!"virtual") ∈ c.tableList) := by
    intro t
    rw [List.any_eq_true]
    constructor
    · rintro ⟨⟨a, b, d⟩, hm, h⟩
      simp only [Bool.and_eq_true, Bool.or_eq_true, beq_iff_eq] at h
      obtain ⟨⟨h1 | h1, h2⟩, h3⟩ := h
      · subst h1 h2 h3; exact .inl hm
      · subst h1 h2 h3; exact .inr hm
    · rintro (h | h)
      · exact ⟨_, h, by simp⟩
      · exact ⟨_, h, by simp⟩
  unfold liteTables
  rw [List.mem_map]
  simp only [List.mem_filter, Bool.and_eq_true, hsys, Bool.false_or, if_neg Bool.false_ne_true, beq_iff_eq,
    Bool.not_eq_true', listed, passes_iff ht]
  constructor
  · rintro ⟨m, ⟨hm, ⟨h1, h2, h3⟩, h4⟩, rfl⟩
    exact ⟨⟨m, hm, h1, rfl⟩, (notLite_iff (hn m hm)).mp h2, h3, h4⟩
  · rintro ⟨⟨m, hm, h1, rfl⟩, h2, h3, h4⟩
    exact ⟨m, ⟨hm, ⟨h1, (notLite_iff (hn m hm)).mpr h2, h3⟩, h4⟩, rfl⟩

/-- C109: all columns of a SQLite table that is reported are reported, unless the name of the table
was written in single quotes. -/
theorem sqlite_columns_partial {f : Filter} {c : LiteTables} (hsys : f.system = false) {m : LiteRow}
    (hm : m ∈ c.rows) (hty : m.type = b!"table") (hr : m.tblName ∈ liteTables false f c)
    (hq : (m.sql.take 14).map Go.lowerC ≠ b!"create table '") (x : Str) :
    (m.tblName, x) ∈ liteColumns f c ↔ x ∈ c.columns m.tblName := by
  have hlike : like Go.lowerC b!"CREATE TABLE '%" m.sql = false := by
    by_cases h : like Go.lowerC b!"CREATE TABLE '%" m.sql = true
    · have := (like_prefix Go.lowerC (lit := b!"CREATE TABLE '") (by decide) m.sql).mp h
      exact absurd this.2 hq
    · simpa using h
  unfold liteTables at hr
  rw [List.mem_map] at hr
  simp only [List.mem_filter, Bool.and_eq_true, hsys, Bool.false_or, if_neg Bool.false_ne_true] at hr
  obtain ⟨m', ⟨_, ⟨_, h2, _⟩, h4⟩, e⟩ := hr
  rw [e] at h2 h4
  unfold liteColumns
  rw [List.mem_flatMap]
  constructor
  · rintro ⟨m2, _, h⟩
    obtain ⟨y, hy, e2⟩ := List.mem_map.mp h
    obtain ⟨e3, e4⟩ := Prod.mk.inj e2
    rw [← e3, ← e4]
    exact hy
  · intro hx
    refine ⟨m, ?_, List.mem_map.mpr ⟨x, hx, rfl⟩⟩
    rw [List.mem_filter]
    refine ⟨hm, ?_⟩
    simp only [Bool.and_eq_true, hsys, Bool.false_or, beq_iff_eq, hlike]
    exact ⟨⟨hty, h2, rfl⟩, h4⟩

/-! ## SQL Server -/

/-- the name begins with a text and goes on -/
def Longer (fold : Char → Char) (lit name : Str) : Prop :=
  lit.length < name.length ∧ (name.take lit.length).map fold = lit.map fold

/-- C109: the tables of SQL Server that are reported are those that the server does not bring along,
if these are named spt_... or msreplication_... and no other name begins with spt or msreplication. -/
theorem sqlserver_tables_partial {fold : Char → Char} {f : Filter} {objects : List MsObject}
    (shipped : MsObject → Prop) (hsys : f.system = false) (hf : OneOf f.schemas f.excludeSchemas)
    (ht : OneOf f.tables f.excludeTables)
    (hs : ∀ o ∈ objects, shipped o → Longer fold b!"spt" o.name ∨ Longer fold b!"msreplication" o.name)
    (hn : ∀ o ∈ objects, ¬ shipped o → ¬ Longer fold b!"spt" o.name ∧ ¬ Longer fold b!"msreplication" o.name)
    (s t : Str) :
    (s, t) ∈ msTables fold f objects ↔
      ∃ o ∈ objects, o.schema = s ∧ o.name = t ∧ o.type = b!"U" ∧ ¬ shipped o ∧
        Wanted f.schemas f.excludeSchemas s ∧ Wanted f.tables f.excludeTables t := by
  have l1 : ∀ n, like fold b!"spt_%" n = true ↔ Longer fold b!"spt" n :=
    fun n => like_more fold (lit := b!"spt") (by decide) n
  have l2 : ∀ n, like fold b!"msreplication_%" n = true ↔ Longer fold b!"msreplication" n :=
    fun n => like_more fold (lit := b!"msreplication") (by decide) n
  unfold msTables
  rw [List.mem_map]
  simp only [List.mem_filter, Bool.and_eq_true, hsys, Bool.false_or, beq_iff_eq, Bool.not_eq_true',
    ← Bool.not_eq_true, l1, l2, passes_iff hf, passes_iff ht]
  constructor
  · rintro ⟨o, ⟨ho, ⟨⟨h1, h2, h3⟩, h4⟩, h5⟩, e⟩
    cases e
    refine ⟨o, ho, rfl, rfl, h1, fun h => ?_, h4, h5⟩
    rcases hs o ho h with h | h
    · exact h2 h
    · exact h3 h
  · rintro ⟨o, ho, rfl, rfl, h1, h2, h4, h5⟩
    exact ⟨o, ⟨ho, ⟨⟨h1, hn o ho h2⟩, h4⟩, h5⟩, rfl⟩

/-- C109: the procedures and functions of SQL Server that are reported are those that the server does
not bring along, if these are named sp_... and no other name begins with sp. -/
theorem sqlserver_routines_partial {fold : Char → Char} {f : Filter} {objects : List MsObject}
    (shipped : MsObject → Prop) (hsys : f.system = false) (hf : OneOf f.schemas f.excludeSchemas)
    (ht : OneOf f.routines f.excludeRoutines)
    (hs : ∀ o ∈ objects, shipped o ↔ Longer fold b!"sp" o.name) (s t : Str) :
    (s, t) ∈ msRoutines fold f objects ↔
      ∃ o ∈ objects, o.schema = s ∧ o.name = t ∧
        (o.type = b!"P" ∨ o.type = b!"FN" ∨ o.type = b!"IF" ∨ o.type = b!"TF") ∧ ¬ shipped o ∧
        Wanted f.schemas f.excludeSchemas s ∧ Wanted f.routines f.excludeRoutines t := by
  have l1 : ∀ n, like fold b!"sp_%" n = true ↔ Longer fold b!"sp" n :=
    fun n => like_more fold (lit := b!"sp") (by decide) n
  have ty : ∀ x : Str, [b!"P", b!"FN", b!"IF", b!"TF"].contains x = true ↔
      (x = b!"P" ∨ x = b!"FN" ∨ x = b!"IF" ∨ x = b!"TF") := by intro x; simp
  unfold msRoutines
  rw [List.mem_map]
  simp only [List.mem_filter, Bool.and_eq_true, hsys, Bool.false_or, Bool.not_eq_true',
    ← Bool.not_eq_true, l1, ty, passes_iff hf, passes_iff ht]
  constructor
  · rintro ⟨o, ⟨ho, ⟨⟨h1, h2⟩, h4⟩, h5⟩, e⟩
    cases e
    exact ⟨o, ho, rfl, rfl, h1, fun h => h2 ((hs o ho).mp h), h4, h5⟩
  · rintro ⟨o, ho, rfl, rfl, h1, h2, h4, h5⟩
    exact ⟨o, ⟨ho, ⟨⟨h1, fun h => h2 ((hs o ho).mpr h)⟩, h4⟩, h5⟩, rfl⟩

end Sqddl.Scripts
