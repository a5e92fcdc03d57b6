import Verif.Lemmas.DriverDsn

/-!
# C107: a driver gets the database URL that was given

A database URL passes through the `PreprocessDSN` of the driver before it is opened.  What stood in it
still stands in it: the parameters keep their values, a parameter that was not set gets its default,
the address, the user, the password and the database are those of the URL.
-/

namespace Sqddl
open Go UrlSpec

/-! ## Changing parameters -/

theorem valuesOf_qSet (ps : List (Str × Str)) (k v : Str) (x : Str) :
    valuesOf x (qSet ps k v) = if x = k then [v] else valuesOf x ps := by
  unfold valuesOf qSet
  rw [List.filter_append, List.filter_filter]
  by_cases h : x = k
  · subst h
    rw [if_pos rfl]
    have : (ps.filter (fun y => (y.1 == x) && (y.1 != x))) = [] := by
      rw [List.filter_eq_nil_iff]
      intro y _
      simp
    rw [this]
    simp
  · rw [if_neg h]
    have h2 : ([(k, v)].filter (fun y => y.1 == x)) = [] := by simp [Ne.symm h]
    rw [h2, List.append_nil]
    refine congrArg _ (List.filter_congr (fun y _ => ?_))
    by_cases e : y.1 = x
    · simp [e, h]
    · simp [e]

theorem qHas_values (ps : List (Str × Str)) (k : Str) : qHas ps k = true ↔ valuesOf k ps ≠ [] := by
  unfold qHas valuesOf
  simp only [List.any_eq_true, ne_eq, List.map_eq_nil_iff, List.filter_eq_nil_iff]
  grind

theorem valuesOf_qDefault (ps : List (Str × Str)) (k v : Str) (x : Str) :
    valuesOf x (qDefault ps k v) = if x = k ∧ valuesOf k ps = [] then [v] else valuesOf x ps := by
  unfold qDefault
  by_cases h : qHas ps k = true
  · rw [if_pos h, if_neg (fun e => (qHas_values ps k).mp h e.2)]
  · have h2 : valuesOf k ps = [] := by
      by_cases e : valuesOf k ps = []
      · exact e
      · exact absurd ((qHas_values ps k).mpr e) h
    rw [if_neg h, valuesOf_qSet]
    by_cases e : x = k
    · rw [if_pos e, if_pos ⟨e, h2⟩]
    · rw [if_neg e, if_neg (fun e' => e e'.1)]

theorem bytes_qSet {ps : List (Str × Str)} {k v : Str} (h : BytesAll ps) (hk : Bytes k) (hv : Bytes v) :
    BytesAll (qSet ps k v) := by
  intro x hx
  rcases List.mem_append.mp hx with hx | hx
  · exact h x (List.mem_filter.mp hx).1
  · rw [List.mem_singleton] at hx
    subst hx
    exact ⟨hk, hv⟩

theorem bytes_qDefault {ps : List (Str × Str)} {k v : Str} (h : BytesAll ps) (hk : Bytes k)
    (hv : Bytes v) : BytesAll (qDefault ps k v) := by
  unfold qDefault
  by_cases e : qHas ps k = true
  · rw [if_pos e]; exact h
  · rw [if_neg e]; exact bytes_qSet h hk hv

/-! ## The query is replaced -/

theorem after_eq (dsn : Str) : dsn.drop ((beforeQuery dsn).length + 1) = (cutFirst '?' dsn).2 :=
  drop_takeWhile_succ _ dsn

theorem before_free (dsn : Str) : '?' ∉ (cutFirst '?' dsn).1 := by
  intro h
  have := List.all_takeWhile (p := fun c : Char => decide (c ≠ '?')) (l := dsn)
  rw [List.all_eq_true] at this
  simpa using this _ h

theorem cutFirst_append {c : Char} {s t : Str} (h : c ∉ s) : cutFirst c (s ++ c :: t) = (s, t) := by
  unfold cutFirst
  rw [(takeWhile_free h t).1, (takeWhile_free h t).2]
  rfl

/-- the shape of the result -/
theorem withQuery_eq {dsn : Str} {ps : List (Str × Str)} (h : readQuery (cutFirst '?' dsn).2 = some ps)
    (change : List (Str × Str) → List (Str × Str)) :
    withQuery dsn change = (cutFirst '?' dsn).1 ++ '?' :: encodeQuery (change ps) := by
  unfold withQuery
  dsimp only
  rw [after_eq, parseQuery_eq, h]
  dsimp only
  rw [List.append_assoc]
  rfl

theorem withQuery_reads {dsn : Str} {ps : List (Str × Str)} (hb : Bytes dsn)
    (h : readQuery (cutFirst '?' dsn).2 = some ps)
    (change : List (Str × Str) → List (Str × Str)) (hc : BytesAll ps → BytesAll (change ps)) :
    ∃ ps', (cutFirst '?' (withQuery dsn change)).1 = (cutFirst '?' dsn).1 ∧
      readQuery (cutFirst '?' (withQuery dsn change)).2 = some ps' ∧
      ∀ k, valuesOf k ps' = valuesOf k (change ps) := by
  have hp : BytesAll ps := by
    refine bytes_parse (s := (cutFirst '?' dsn).2) ?_ (by rw [parseQuery_eq]; exact h)
    rw [← after_eq]
    exact bytes_sub hb (fun c hc => List.mem_of_mem_drop hc)
  refine ⟨grouped (change ps), ?_, ?_, grouped_values _⟩
  · rw [withQuery_eq h, cutFirst_append (before_free dsn)]
  · rw [withQuery_eq h, cutFirst_append (before_free dsn)]
    exact readQuery_encode (hc hp)

theorem withQuery_none {dsn : Str} (h : readQuery (cutFirst '?' dsn).2 = none)
    (change : List (Str × Str) → List (Str × Str)) : withQuery dsn change = dsn := by
  unfold withQuery
  dsimp only
  rw [after_eq, parseQuery_eq, h]

theorem bytes_lit {s : Str} (h : s.all (fun c => decide (c.toNat < 256)) = true) : Bytes s := by
  intro c hc
  simpa using List.all_eq_true.mp h c hc

/-! ## Postgres -/

/-- C107: what a Postgres URL says, it says afterwards; `sslmode` is `disable` if it was not set. -/
theorem postgres_url {dsn : Str} {ps : List (Str × Str)} (hb : Bytes dsn)
    (h : readQuery (cutFirst '?' dsn).2 = some ps) :
    ∃ ps', (cutFirst '?' (pgPreprocess dsn)).1 = (cutFirst '?' dsn).1 ∧
      readQuery (cutFirst '?' (pgPreprocess dsn)).2 = some ps' ∧
      WithDefaults [(b!"sslmode", b!"disable")] ps ps' := by
  obtain ⟨ps', h1, h2, h3⟩ := withQuery_reads hb h (fun q => qDefault q b!"sslmode" b!"disable")
    (fun hp => bytes_qDefault hp (bytes_lit (by decide)) (bytes_lit (by decide)))
  refine ⟨ps', h1, h2, fun k => ?_⟩
  rw [h3 k, valuesOf_qDefault]
  by_cases e : k = b!"sslmode"
  · subst e
    by_cases e2 : valuesOf b!"sslmode" ps = []
    · rw [if_pos ⟨rfl, e2⟩, if_pos e2]; rfl
    · rw [if_neg (fun e' => e2 e'.2), if_neg e2]
  · rw [if_neg (fun e' => e e'.1)]
    by_cases e2 : valuesOf k ps = []
    · rw [if_pos e2, e2]
      symm
      unfold valuesOf
      rw [List.map_eq_nil_iff, List.filter_eq_nil_iff]
      intro x hx
      rw [List.mem_singleton] at hx
      subst hx
      simpa using Ne.symm e
    · rw [if_neg e2]

/-- C107: a Postgres URL whose query cannot be read is left as it is. -/
theorem postgres_url_unread {dsn : Str} (h : readQuery (cutFirst '?' dsn).2 = none) :
    pgPreprocess dsn = dsn := withQuery_none h _

/-! ## SQLite -/

/-- C107: the file and the parameters of a SQLite URL stay; foreign keys are checked unless the URL
says something about them. -/
theorem sqlite_url {dsn file : Str} {ps : List (Str × Str)} (hb : Bytes dsn)
    (hf : dsn = file ∨ dsn = b!"sqlite:" ++ file ∨ dsn = b!"sqlite://" ++ file)
    (hp : hasPrefix file b!"sqlite:" = false) (hs : hasPrefix file b!"//" = false)
    (h : readQuery (cutFirst '?' file).2 = some ps) :
    ∃ ps', (cutFirst '?' (litePreprocess dsn)).1 = (cutFirst '?' file).1 ∧
      readQuery (cutFirst '?' (litePreprocess dsn)).2 = some ps' ∧
      ∀ k, valuesOf k ps' =
        if k = b!"_foreign_keys" ∧ valuesOf b!"_foreign_keys" ps = [] ∧ valuesOf b!"_fk" ps = []
        then [b!"true"] else valuesOf k ps := by
  have hd : trimPrefix (trimPrefix dsn b!"sqlite:") b!"//" = file := by
    rcases hf with rfl | rfl | rfl
    · have e : trimPrefix dsn b!"sqlite:" = dsn := by
        unfold trimPrefix; rw [if_neg (by rw [hp]; decide)]
      rw [e]; unfold trimPrefix; rw [if_neg (by rw [hs]; decide)]
    · have e : trimPrefix (b!"sqlite:" ++ file) b!"sqlite:" = file := by
        unfold trimPrefix; rw [if_pos (by simp [hasPrefix])]; simp
      rw [e]; unfold trimPrefix; rw [if_neg (by rw [hs]; decide)]
    · have e : trimPrefix (b!"sqlite://" ++ file) b!"sqlite:" = b!"//" ++ file := by
        unfold trimPrefix; rw [if_pos (by simp [hasPrefix])]; simp
      rw [e]; unfold trimPrefix; rw [if_pos (by simp [hasPrefix])]; simp
  have hbf : Bytes file := by
    rcases hf with rfl | rfl | rfl
    · exact hb
    · exact bytes_sub hb (fun c hc => List.mem_append_right _ hc)
    · exact bytes_sub hb (fun c hc => List.mem_append_right _ hc)
  unfold litePreprocess
  rw [hd]
  obtain ⟨ps', h1, h2, h3⟩ := withQuery_reads hbf h
    (fun q => if !qHas q b!"_foreign_keys" && !qHas q b!"_fk" then
      qSet q b!"_foreign_keys" b!"true" else q)
    (fun hp => by
      by_cases e : (!qHas ps b!"_foreign_keys" && !qHas ps b!"_fk") = true
      · rw [if_pos e]; exact bytes_qSet hp (bytes_lit (by decide)) (bytes_lit (by decide))
      · rw [if_neg e]; exact hp)
  refine ⟨ps', h1, h2, fun k => ?_⟩
  rw [h3 k]
  have q1 := qHas_values ps b!"_foreign_keys"
  have q2 := qHas_values ps b!"_fk"
  by_cases e : (!qHas ps b!"_foreign_keys" && !qHas ps b!"_fk") = true
  · rw [if_pos e, valuesOf_qSet]
    simp only [Bool.and_eq_true, Bool.not_eq_true'] at e
    have v1 : valuesOf b!"_foreign_keys" ps = [] := by
      by_cases v : valuesOf b!"_foreign_keys" ps = []
      · exact v
      · rw [q1.mpr v] at e; exact absurd e.1 (by decide)
    have v2 : valuesOf b!"_fk" ps = [] := by
      by_cases v : valuesOf b!"_fk" ps = []
      · exact v
      · rw [q2.mpr v] at e; exact absurd e.2 (by decide)
    by_cases ek : k = b!"_foreign_keys"
    · rw [if_pos ek, if_pos ⟨ek, v1, v2⟩]
    · rw [if_neg ek, if_neg (fun h => ek h.1)]
  · rw [if_neg e]
    refine (if_neg (fun h => e ?_)).symm
    simp only [Bool.and_eq_true, Bool.not_eq_true']
    constructor
    · by_cases v : qHas ps b!"_foreign_keys" = true
      · exact absurd h.2.1 (q1.mp v)
      · simpa using v
    · by_cases v : qHas ps b!"_fk" = true
      · exact absurd h.2.2 (q2.mp v)
      · simpa using v

/-! ## MySQL -/

/-- the parameters that a MySQL connection gets if they are not set -/
def mysqlDefaults : List (Str × Str) :=
  [(b!"allowAllFiles", b!"true"), (b!"multiStatements", b!"true"), (b!"parseTime", b!"true")]

theorem three_defaults (ps : List (Str × Str)) {a b c : Str} (v k : Str) (hab : a ≠ b) (hac : a ≠ c)
    (hbc : b ≠ c) : valuesOf k (qDefault (qDefault (qDefault ps a v) b v) c v) =
    if valuesOf k ps = [] then valuesOf k [(a, v), (b, v), (c, v)] else valuesOf k ps := by
  have e : valuesOf k [(a, v), (b, v), (c, v)] = if k = a ∨ k = b ∨ k = c then [v] else [] := by
    unfold valuesOf
    by_cases h1 : k = a
    · subst h1; simp [Ne.symm hab, Ne.symm hac]
    · by_cases h2 : k = b
      · subst h2; simp [hab, Ne.symm hbc]
      · by_cases h3 : k = c
        · subst h3; simp [hac, hbc]
        · simp [Ne.symm h1, Ne.symm h2, Ne.symm h3, h1, h2, h3]
  rw [e]
  simp only [valuesOf_qDefault]
  grind

theorem mysql_defaults (ps : List (Str × Str)) (k : Str) :
    valuesOf k (qDefault (qDefault (qDefault ps b!"allowAllFiles" b!"true")
      b!"multiStatements" b!"true") b!"parseTime" b!"true") =
    if valuesOf k ps = [] then valuesOf k mysqlDefaults else valuesOf k ps :=
  three_defaults ps b!"true" k (by decide) (by decide) (by decide)

theorem cutLast_append {c : Char} {s t : Str} (h : c ∉ t) : cutLast c (s ++ c :: t) = some (s, t) := by
  unfold cutLast
  rw [if_pos (by simp)]
  have e : (s ++ c :: t).reverse = t.reverse ++ c :: s.reverse := by simp
  have h' : c ∉ t.reverse := by simpa using h
  rw [e, (takeWhile_free h' _).1, (takeWhile_free h' _).2]
  simp

theorem cutLast_some {c : Char} {s a b : Str} (h : cutLast c s = some (a, b)) :
    s = a ++ c :: b ∧ c ∉ b := by
  unfold cutLast at h
  by_cases hc : c ∈ s
  · rw [if_pos hc] at h
    obtain ⟨u, v, e, hv⟩ : ∃ u v, s.reverse = u ++ c :: v ∧ c ∉ u := by
      have : c ∈ s.reverse := by simpa using hc
      obtain ⟨u, v, e, hu⟩ := List.append_of_mem this |>.elim fun u ⟨v, e⟩ =>
        (⟨(s.reverse.takeWhile (· ≠ c)), (s.reverse.dropWhile (· ≠ c)).drop 1, by
          have h0 : s.reverse = s.reverse.takeWhile (· ≠ c) ++ s.reverse.dropWhile (· ≠ c) :=
            (List.takeWhile_append_dropWhile).symm
          have h1 : s.reverse.dropWhile (· ≠ c) ≠ [] := by
            intro hn
            rw [hn, List.append_nil] at h0
            have h2 := List.all_takeWhile (p := fun d : Char => decide (d ≠ c)) (l := s.reverse)
            rw [List.all_eq_true] at h2
            have := h2 c (h0 ▸ this)
            simp at this
          have h3 := List.head_dropWhile_not (fun d : Char => decide (d ≠ c)) h1
          cases hd : s.reverse.dropWhile (· ≠ c) with
          | nil => exact absurd hd h1
          | cons x r =>
            have hx : x = c := by
              simp only [hd, List.head_cons] at h3
              simpa using h3
            rw [hd, hx] at h0
            simpa [hd] using h0, by
          intro hm
          have h2 := List.all_takeWhile (p := fun d : Char => decide (d ≠ c)) (l := s.reverse)
          rw [List.all_eq_true] at h2
          have := h2 c hm
          simp at this⟩ : ∃ u v, s.reverse = u ++ c :: v ∧ c ∉ u)
      exact ⟨u, v, e, hu⟩
    rw [e, (takeWhile_free hv _).1, (takeWhile_free hv _).2] at h
    simp only [List.drop_succ_cons, List.drop_zero, Option.some.injEq, Prod.mk.injEq] at h
    obtain ⟨rfl, rfl⟩ := h
    refine ⟨?_, by simpa using hv⟩
    have := congrArg List.reverse e
    simpa using this
  · rw [if_neg hc] at h; cases h

/-- a query behind a text that the driver reads -/
theorem readMysql_query {before q : Str} {m : MysqlDsn} (h : readMysql before = some m)
    (hq : '?' ∉ before) (hs : '/' ∉ q) :
    readMysql (before ++ '?' :: q) = some { m with query := q } := by
  unfold readMysql at h ⊢
  cases hc : cutLast '/' before with
  | none => rw [hc] at h; cases h
  | some p =>
    obtain ⟨left, right⟩ := p
    obtain ⟨e, hr⟩ := cutLast_some hc
    have e2 : before ++ '?' :: q = left ++ '/' :: (right ++ '?' :: q) := by rw [e]; simp
    have hr2 : '/' ∉ right ++ '?' :: q := by simp [hr, hs]
    have hq2 : '?' ∉ right := fun hm => hq (by rw [e]; simp [hm])
    rw [hc] at h
    rw [e2, cutLast_append hr2]
    simp only [Option.bind_eq_bind, Option.bind_some] at h ⊢
    rw [cutFirst_append hq2]
    have e3 : (cutFirst '?' right).1 = right := (takeWhile_free' hq2).1
    revert h
    generalize (cutLast '@' left).getD ([], left) = pc
    by_cases c1 : '(' ∈ pc.2
    · rw [if_pos c1, if_pos c1]
      by_cases c2 : (cutFirst '(' pc.2).2.getLast? = some ')'
      · rw [if_pos c2, if_pos c2]
        intro h
        cases h
        rw [e3]
      · rw [if_neg c2]; intro h; cases h
    · rw [if_neg c1, if_neg c1]
      intro h
      cases h
      rw [e3]

theorem mysql_withQuery {dsn : Str} {m : MysqlDsn} {ps : List (Str × Str)} (hb : Bytes dsn)
    (hm : readMysql (cutFirst '?' dsn).1 = some m) (h : readQuery (cutFirst '?' dsn).2 = some ps) :
    ∃ q ps', readMysql (withQuery dsn (fun q => qDefault (qDefault (qDefault q b!"allowAllFiles" b!"true")
        b!"multiStatements" b!"true") b!"parseTime" b!"true")) = some { m with query := q } ∧
      readQuery q = some ps' ∧ WithDefaults mysqlDefaults ps ps' := by
  have bd : ∀ {k v : Str} {ps : List (Str × Str)}, k.all (fun c => decide (c.toNat < 256)) = true →
      v.all (fun c => decide (c.toNat < 256)) = true → BytesAll ps → BytesAll (qDefault ps k v) :=
    fun h1 h2 hp => bytes_qDefault hp (bytes_lit h1) (bytes_lit h2)
  obtain ⟨ps', h1, h2, h3⟩ := withQuery_reads hb h
    (fun q => qDefault (qDefault (qDefault q b!"allowAllFiles" b!"true")
        b!"multiStatements" b!"true") b!"parseTime" b!"true")
    (fun hp => bd (by decide) (by decide) (bd (by decide) (by decide) (bd (by decide) (by decide) hp)))
  have e := withQuery_eq h
    (fun q => qDefault (qDefault (qDefault q b!"allowAllFiles" b!"true")
        b!"multiStatements" b!"true") b!"parseTime" b!"true")
  rw [e] at h2 ⊢
  rw [cutFirst_append (before_free dsn)] at h2
  exact ⟨_, ps', readMysql_query hm (before_free dsn)
    (encode_free _ (by decide) (by decide) (by decide) (by decide) (by decide)), h2,
    fun k => by rw [h3 k, mysql_defaults]⟩

/-- C107: a MySQL URL in the form of the driver says what it said, with the defaults of the
connection, if the text in front of the first question mark says who and where. -/
theorem mysql_dsn_partial (parse : Str → Option Url) {dsn : Str} {m : MysqlDsn}
    {ps : List (Str × Str)} (hn : hasPrefix dsn b!"mysql://" = false) (hb : Bytes dsn)
    (hm : readMysql (cutFirst '?' dsn).1 = some m) (h : readQuery (cutFirst '?' dsn).2 = some ps) :
    ∃ q ps', readMysql (mysqlPreprocess parse dsn) = some { m with query := q } ∧
      readQuery q = some ps' ∧ WithDefaults mysqlDefaults ps ps' := by
  unfold mysqlPreprocess
  rw [if_neg (by rw [hn]; decide)]
  exact mysql_withQuery hb hm h

/-- the user and the password of a URL -/
def credOf (u : Url) : Str × Str :=
  match u.user with
  | none => ([], [])
  | some (name, none) => (name, [])
  | some (name, some password) => (name, password)

theorem readMysql_text {u : Url} {db : Str} (hh : u.host ≠ []) (hu : ':' ∉ (credOf u).1)
    (hne : u.user ≠ none → (credOf u).1 ≠ []) (ha : '@' ∉ u.host) (hp : u.path = '/' :: db)
    (hd : '/' ∉ db) (hq : '?' ∉ db) :
    readMysql (credText u ++
      ((if credText u = [] then [] else b!"@") ++
        b!"tcp(" ++ u.host ++ b!")") ++ b!"/" ++ db) =
    some ⟨(credOf u).1, (credOf u).2, b!"tcp", u.host, db, []⟩ := by
  have place : ∀ cred : Str,
      cutFirst '(' (b!"tcp(" ++ u.host ++ b!")") = (b!"tcp", u.host ++ b!")") := fun _ => by
    have : b!"tcp(" ++ u.host ++ b!")" = b!"tcp" ++ '(' :: (u.host ++ b!")") := by simp
    rw [this, cutFirst_append (by decide)]
  have hat : '@' ∉ b!"tcp(" ++ u.host ++ b!")" := by simp [ha]
  have fin : ∀ {left name pw : Str} {cred : Str}, 
      (cutLast '@' left).getD ([], left) = (cred, b!"tcp(" ++ u.host ++ b!")") →
      cutFirst ':' cred = (name, pw) →
      readMysql (left ++ '/' :: db) = some ⟨name, pw, b!"tcp", u.host, db, []⟩ := by
    intro left name pw cred h1 h2
    unfold readMysql
    rw [cutLast_append hd]
    simp only [Option.bind_eq_bind, Option.bind_some]
    rw [h1]
    dsimp only
    rw [h2, place [], if_pos (by simp), if_pos (by simp)]
    have : cutFirst '?' db = (db, []) := by
      unfold cutFirst
      rw [(takeWhile_free' hq).1, (takeWhile_free' hq).2]; rfl
    rw [this]
    simp
  have some_case : ∀ {cred name pw : Str}, cred ≠ [] → cutFirst ':' cred = (name, pw) →
      readMysql (cred ++ ((if cred = [] then [] else b!"@") ++ b!"tcp(" ++ u.host ++ b!")") ++ b!"/" ++ db)
        = some ⟨name, pw, b!"tcp", u.host, db, []⟩ := by
    intro cred name pw hne h2
    rw [if_neg hne]
    have e : cred ++ (b!"@" ++ b!"tcp(" ++ u.host ++ b!")") ++ b!"/" ++ db =
        (cred ++ '@' :: (b!"tcp(" ++ u.host ++ b!")")) ++ '/' :: db := by simp
    rw [e]
    refine fin (cred := cred) ?_ h2
    rw [cutLast_append hat]; rfl
  unfold credText
  cases hus : u.user with
  | none =>
    dsimp only
    rw [if_pos rfl]
    have e : (credOf u) = ([], []) := by unfold credOf; rw [hus]
    rw [e]
    have e2 : ([] : Str) ++ ([] ++ b!"tcp(" ++ u.host ++ b!")") ++ b!"/" ++ db =
        (b!"tcp(" ++ u.host ++ b!")") ++ '/' :: db := by simp
    rw [e2]
    refine fin (cred := []) ?_ rfl
    unfold cutLast
    rw [if_neg hat]; rfl
  | some np =>
    obtain ⟨name, o⟩ := np
    have hne' := hne (by rw [hus]; simp)
    cases o with
    | none =>
      have e : (credOf u) = (name, []) := by unfold credOf; rw [hus]
      rw [e] at hu hne' ⊢
      dsimp only
      refine some_case hne' ?_
      unfold cutFirst
      rw [(takeWhile_free' hu).1, (takeWhile_free' hu).2]; rfl
    | some pw =>
      have e : (credOf u) = (name, pw) := by unfold credOf; rw [hus]
      rw [e] at hu hne' ⊢
      dsimp only
      refine some_case (by simp) ?_
      have : name ++ b!":" ++ pw = name ++ ':' :: pw := by simp
      rw [this, cutFirst_append hu]

/-- every character of the parts of a URL is a byte -/
def UrlBytes (u : Url) : Prop :=
  Bytes (credOf u).1 ∧ Bytes (credOf u).2 ∧ Bytes u.host ∧ Bytes u.path ∧ Bytes u.rawQuery

/-- C107: the driver of MySQL reads the user, the password, the host and the database of a URL, and
its parameters with the defaults of the connection, unless there is a question mark in one of them
(or a colon in the user name, or an `@` in the host). -/
theorem mysql_url_partial (parse : Str → Option Url) {dsn : Str} {u : Url} {db : Str}
    {ps : List (Str × Str)} (hpre : hasPrefix dsn b!"mysql://" = true) (hparse : parse dsn = some u)
    (hb : UrlBytes u) (hh : u.host ≠ []) (hne : u.user ≠ none → (credOf u).1 ≠ [])
    (hu : ':' ∉ (credOf u).1) (huq : '?' ∉ (credOf u).1) (hpq : '?' ∉ (credOf u).2)
    (ha : '@' ∉ u.host) (hhq : '?' ∉ u.host) (hp : u.path = '/' :: db) (hd : '/' ∉ db) (hq : '?' ∉ db)
    (h : readQuery u.rawQuery = some ps) :
    ∃ q ps', readMysql (mysqlPreprocess parse dsn) =
        some ⟨(credOf u).1, (credOf u).2, b!"tcp", u.host, db, q⟩ ∧
      readQuery q = some ps' ∧ WithDefaults mysqlDefaults ps ps' := by
  obtain ⟨b1, b2, b3, b4, b5⟩ := hb
  unfold mysqlPreprocess
  rw [if_pos hpre, hparse]
  dsimp only
  have htrim : trimPrefix u.path b!"/" = db := by rw [hp]; unfold trimPrefix; rw [if_pos (by simp [hasPrefix])]; rfl
  have ht := readMysql_text (u := u) (db := db) hh hu hne ha hp hd hq
  unfold mysqlText
  dsimp only
  rw [if_neg hh, htrim]
  have bapp : ∀ {a b : Str}, Bytes a → Bytes b → Bytes (a ++ b) := fun ha hb c hc => by
    rcases List.mem_append.mp hc with h | h
    · exact ha c h
    · exact hb c h
  have bcred : Bytes (credText u) ∧ '?' ∉ credText u := by
    unfold credOf at b1 b2 huq hpq
    unfold credText
    cases hus : u.user with
    | none => exact ⟨fun c hc => (by cases hc), fun hc => (by cases hc)⟩
    | some np =>
      obtain ⟨name, o⟩ := np
      rw [hus] at b1 b2 huq hpq
      cases o with
      | none => exact ⟨b1, huq⟩
      | some pw =>
        refine ⟨bapp (bapp b1 (bytes_lit (by decide))) b2, ?_⟩
        simp only [List.mem_append, not_or]
        exact ⟨⟨huq, by decide⟩, hpq⟩
  revert ht bcred
  generalize credText u = cred
  intro ht bcred
  obtain ⟨bc, qc⟩ := bcred
  have bdb : Bytes db := bytes_sub b4 (fun c hc => by rw [hp]; exact List.mem_cons_of_mem _ hc)
  revert ht
  generalize hT : cred ++ ((if cred = [] then [] else b!"@") ++ b!"tcp(" ++ u.host ++ b!")") ++ b!"/" ++ db
    = text
  intro ht
  have bt : Bytes text := by
    rw [← hT]
    refine bapp (bapp (bapp bc (bapp (bapp (bapp ?_ (bytes_lit (by decide))) b3) (bytes_lit (by decide))))
      (bytes_lit (by decide))) bdb
    by_cases e : cred = []
    · rw [if_pos e]; exact bytes_lit (by decide)
    · rw [if_neg e]; exact bytes_lit (by decide)
  have qt : '?' ∉ text := by
    rw [← hT]
    simp only [List.mem_append, not_or]
    refine ⟨⟨⟨qc, ⟨⟨?_, by decide⟩, hhq⟩, by decide⟩, by decide⟩, hq⟩
    by_cases e : cred = []
    · rw [if_pos e]; decide
    · rw [if_neg e]; decide
  by_cases hr : u.rawQuery = []
  · rw [if_pos hr, List.append_nil]
    have c1 : cutFirst '?' text = (text, []) := by
      unfold cutFirst
      rw [(takeWhile_free' qt).1, (takeWhile_free' qt).2]; rfl
    rw [hr] at h
    exact mysql_withQuery (m := ⟨(credOf u).1, (credOf u).2, b!"tcp", u.host, db, []⟩) bt
      (by rw [c1]; exact ht) (by rw [c1]; exact h)
  · rw [if_neg hr]
    have e : text ++ (b!"?" ++ u.rawQuery) = text ++ '?' :: u.rawQuery := rfl
    rw [e]
    have c1 := cutFirst_append (c := '?') (s := text) (t := u.rawQuery) qt
    exact mysql_withQuery (m := ⟨(credOf u).1, (credOf u).2, b!"tcp", u.host, db, []⟩)
      (bapp bt (fun c hc => by
        rcases List.mem_cons.mp hc with rfl | hc
        · decide
        · exact b5 c hc))
      (by rw [c1]; exact ht) (by rw [c1]; exact h)

/-! ## SQL Server -/

/-- C107: the path of a SQL Server URL is the database; the other parameters, the user and the host
stay as they are. -/
theorem sqlserver_url_partial (parse : Str → Option Url) {dsn front db : Str} {u : Url}
    {ps : List (Str × Str)} (hb : Bytes dsn) (hparse : parse dsn = some u)
    (hp : u.path = '/' :: db) (hf : (cutFirst '?' dsn).1 = front ++ '/' :: db)
    (h : readQuery (cutFirst '?' dsn).2 = some ps) :
    ∃ ps', (cutFirst '?' (mssqlPreprocess parse dsn)).1 = front ∧
      readQuery (cutFirst '?' (mssqlPreprocess parse dsn)).2 = some ps' ∧
      ∀ k, valuesOf k ps' = if k = b!"database" then [db] else valuesOf k ps := by
  have hbe : beforeQuery dsn = front ++ '/' :: db := hf
  have e : mssqlPreprocess parse dsn = front ++ '?' :: encodeQuery (qSet ps b!"database" db) := by
    unfold mssqlPreprocess
    rw [hparse]
    dsimp only
    rw [if_neg (by rw [hp]; simp), after_eq, parseQuery_eq, h]
    dsimp only
    rw [hbe, hp]
    have : trimSuffix (front ++ '/' :: db) ('/' :: db) = front := by
      unfold trimSuffix hasSuffix
      rw [if_pos (by simp)]
      simp
    rw [this]
    simp
  have hfree : '?' ∉ front := fun hm => before_free dsn (by rw [hf]; simp [hm])
  have hp2 : BytesAll ps := by
    refine bytes_parse (s := (cutFirst '?' dsn).2) ?_ (by rw [parseQuery_eq]; exact h)
    rw [← after_eq]
    exact bytes_sub hb (fun c hc => List.mem_of_mem_drop hc)
  have hdb : Bytes db := bytes_sub hb (fun c hc =>
    (List.takeWhile_prefix (p := fun c : Char => decide (c ≠ '?')) (l := dsn)).subset (by
      have : dsn.takeWhile (fun c => decide (c ≠ '?')) = front ++ '/' :: db := hf
      rw [this]; simp [hc]))
  rw [e, cutFirst_append hfree]
  exact ⟨_, rfl, readQuery_encode (bytes_qSet hp2 (bytes_lit (by decide)) hdb),
    fun k => by rw [grouped_values, valuesOf_qSet]⟩

/-- C107: a SQL Server URL without a path is left as it is. -/
theorem sqlserver_url_plain (parse : Str → Option Url) {dsn : Str} {u : Url} (hparse : parse dsn = some u)
    (hp : u.path = []) : mssqlPreprocess parse dsn = dsn := by
  unfold mssqlPreprocess
  rw [hparse]
  dsimp only
  rw [if_pos hp]

/-! ## What the program opens -/

theorem not_both {dsn a b : Str} (h : hasPrefix dsn a = true)
    (hne : a.take (min a.length b.length) ≠ b.take (min a.length b.length)) : hasPrefix dsn b = false := by
  by_cases hb : hasPrefix dsn b = true
  · exfalso
    unfold hasPrefix at h hb
    rw [List.isPrefixOf_iff_prefix] at h hb
    obtain ⟨t, rfl⟩ := h
    obtain ⟨u, e⟩ := hb
    apply hne
    have := congrArg (List.take (min a.length b.length)) e
    rw [List.take_append_of_le_length (Nat.min_le_right ..),
      List.take_append_of_le_length (Nat.min_le_left ..)] at this
    exact this.symm
  · simpa using hb

/-- C107: a URL with the scheme of a database is opened by the driver of that database, with the URL
that the driver package makes of it. -/
theorem main_opens (openFile : Str → OpenResult) (parse : Str → Option Url) (dsn : Str) :
    (hasPrefix dsn b!"sqlite:" = true →
      normalizeDSN openFile (mainDrivers parse) dsn = some (.sqlite, b!"sqlite3", litePreprocess dsn)) ∧
    (hasPrefix dsn b!"postgres://" = true →
      normalizeDSN openFile (mainDrivers parse) dsn = some (.postgres, b!"pgx", pgPreprocess dsn)) ∧
    (hasPrefix dsn b!"mysql://" = true →
      normalizeDSN openFile (mainDrivers parse) dsn = some (.mysql, b!"mysql", mysqlPreprocess parse dsn)) ∧
    (hasPrefix dsn b!"sqlserver://" = true →
      normalizeDSN openFile (mainDrivers parse) dsn =
        some (.sqlserver, b!"sqlserver", mssqlPreprocess parse dsn)) ∧
    (hasPrefix dsn b!"oracle://" = true →
      normalizeDSN openFile (mainDrivers parse) dsn = some (.oracle, b!"oracle", dsn)) := by
  have file : hasPrefix dsn b!"file:" = false → fileDsn openFile dsn = .ok dsn := by
    intro h
    unfold fileDsn
    rw [if_neg (by rw [h]; decide)]
  refine ⟨fun h => ?_, fun h => ?_, fun h => ?_, fun h => ?_, fun h => ?_⟩
  · have d : dsnDialect dsn = some .sqlite := by unfold dsnDialect; rw [h]; rfl
    unfold normalizeDSN
    rw [file (not_both h (by decide))]
    dsimp only
    rw [d]
    rfl
  · have d : dsnDialect dsn = some .postgres := by
      unfold dsnDialect
      rw [not_both (b := b!"sqlite:") h (by decide), not_both (b := b!"sqlite3:") h (by decide), h]
      rfl
    unfold normalizeDSN
    rw [file (not_both h (by decide))]
    dsimp only
    rw [d]
    rfl
  · have d : dsnDialect dsn = some .mysql := by
      unfold dsnDialect
      rw [not_both (b := b!"sqlite:") h (by decide), not_both (b := b!"sqlite3:") h (by decide),
        not_both (b := b!"postgres://") h (by decide), h]
      rfl
    unfold normalizeDSN
    rw [file (not_both h (by decide))]
    dsimp only
    rw [d]
    rfl
  · have d : dsnDialect dsn = some .sqlserver := by
      unfold dsnDialect
      rw [not_both (b := b!"sqlite:") h (by decide), not_both (b := b!"sqlite3:") h (by decide),
        not_both (b := b!"postgres://") h (by decide), not_both (b := b!"mysql://") h (by decide), h]
      rfl
    unfold normalizeDSN
    rw [file (not_both h (by decide))]
    dsimp only
    rw [d]
    rfl
  · have d : dsnDialect dsn = some .oracle := by
      unfold dsnDialect
      rw [not_both (b := b!"sqlite:") h (by decide), not_both (b := b!"sqlite3:") h (by decide),
        not_both (b := b!"postgres://") h (by decide), not_both (b := b!"mysql://") h (by decide),
        not_both (b := b!"sqlserver://") h (by decide), h]
      rfl
    unfold normalizeDSN
    rw [file (not_both h (by decide))]
    dsimp only
    rw [d]
    rfl

end Sqddl
