import Verif.Model.Dsn
import Verif.Props.Types

/-!
# C54: database URLs select the right dialect
-/

namespace DsnSpec
open Sqddl

/-- The URL schemes and their dialects. -/
def schemes : List (Str × Dialect) :=
  [(b!"sqlite:", .sqlite), (b!"sqlite3:", .sqlite), (b!"postgres://", .postgres),
   (b!"mysql://", .mysql), (b!"sqlserver://", .sqlserver), (b!"oracle://", .oracle)]

/-- The marks of an address without a scheme, and the endings of database file names. -/
def addresses : List Str := [b!"@tcp(", b!"@unix("]
def endings : List Str := [b!".sqlite", b!".sqlite3", b!".db", b!".db3"]

def HasScheme (s : Str) : Prop := ∃ p ∈ schemes, ∃ rest, s = p.1 ++ rest
def HasAddress (s : Str) : Prop := ∃ p ∈ addresses, ∃ a b, s = a ++ p ++ b
/-- A file name with one of the endings, and possibly a question mark and options. -/
def IsFile (s : Str) : Prop :=
  ∃ name e q, e ∈ endings ∧ s = name ++ e ++ q ∧ '?' ∉ name ∧ (q = [] ∨ q.head? = some '?')

/-- The dialect a URL stands for. -/
inductive StandsFor : Str → Dialect → Prop
  | scheme (p d rest) : (p, d) ∈ schemes → StandsFor (p ++ rest) d
  | address (s) : ¬ HasScheme s → HasAddress s → StandsFor s .mysql
  | file (s) : ¬ HasScheme s → ¬ HasAddress s → IsFile s → StandsFor s .sqlite

end DsnSpec

namespace Sqddl
open DsnSpec Go

theorem hasPrefix_append (p s : Str) : hasPrefix (p ++ s) p = true := by
  simp [hasPrefix]

theorem hasPrefix_iff' (s p : Str) : hasPrefix s p = true ↔ ∃ a, s = p ++ a := by
  unfold hasPrefix
  rw [List.isPrefixOf_iff_prefix]
  constructor
  · rintro ⟨a, h⟩; exact ⟨a, h.symm⟩
  · rintro ⟨a, h⟩; exact ⟨a, h.symm⟩

theorem contains_iff (p s : Str) (hp : p ≠ []) : contains p s = true ↔ ∃ a b, s = a ++ p ++ b := by
  induction s with
  | nil =>
    simp [contains, hp]
  | cons c s ih =>
    rw [contains, Bool.or_eq_true, ih, hasPrefix_iff']
    constructor
    · rintro (⟨a, h⟩ | ⟨a, b, h⟩)
      · exact ⟨[], a, by simpa using h⟩
      · exact ⟨c :: a, b, by simp [h]⟩
    · rintro ⟨a, b, h⟩
      cases a with
      | nil => exact .inl ⟨b, by simpa using h⟩
      | cons x a => simp at h; exact .inr ⟨a, b, by simp [h.2]⟩

theorem beforeQuery_append (a q : Str) (ha : '?' ∉ a) (hq : q = [] ∨ q.head? = some '?') :
    beforeQuery (a ++ q) = a := by
  induction a with
  | nil =>
    rcases hq with rfl | hq
    · rfl
    · cases q with
      | nil => simp at hq
      | cons x q => simp at hq; simp [beforeQuery, hq]
  | cons x a ih =>
    simp at ha
    have := ih ha.2
    simp [beforeQuery] at this ⊢
    simp [Ne.symm ha.1, this]

theorem beforeQuery_split (s : Str) : ∃ q, s = beforeQuery s ++ q ∧ '?' ∉ beforeQuery s ∧
    (q = [] ∨ q.head? = some '?') := by
  induction s with
  | nil => exact ⟨[], by simp [beforeQuery]⟩
  | cons c s ih =>
    by_cases hc : c = '?'
    · exact ⟨c :: s, by simp [beforeQuery, hc]⟩
    · obtain ⟨q, h1, h2, h3⟩ := ih
      refine ⟨q, ?_, ?_, h3⟩
      · rw [beforeQuery, List.takeWhile_cons]
        simp only [hc, ne_eq, not_false_eq_true, decide_true, if_true, List.cons_append, List.cons.injEq, true_and]
        exact h1
      · rw [beforeQuery, List.takeWhile_cons]
        simp [hc, Ne.symm hc]
        simpa [beforeQuery] using h2

theorem sqliteSuffix_iff (s : Str) : sqliteSuffix s = true ↔ ∃ a, ∃ e ∈ endings, s = a ++ e := by
  simp only [sqliteSuffix, Bool.or_eq_true, hasSuffix_iff', endings]
  grind

theorem isFile_iff (s : Str) : sqliteSuffix (beforeQuery s) = true ↔ IsFile s := by
  rw [sqliteSuffix_iff]
  constructor
  · rintro ⟨a, e, he, h⟩
    obtain ⟨q, h1, h2, h3⟩ := beforeQuery_split s
    exact ⟨a, e, q, he, by rw [← h]; exact h1, by rw [h] at h2; simp at h2; exact h2.1, h3⟩
  · rintro ⟨a, e, q, he, h1, h2, h3⟩
    refine ⟨a, e, he, ?_⟩
    rw [h1]
    apply beforeQuery_append _ _ _ h3
    have hall : ∀ e ∈ endings, '?' ∉ e := by decide
    have := hall e he
    simp [h2, this]

theorem dsnDialect_iff (s : Str) (d : Dialect) : dsnDialect s = some d ↔ StandsFor s d := by
  constructor
  · intro h
    unfold dsnDialect at h
    have hpre : ∀ p : Str, hasPrefix s p = true → ∀ d, (p, d) ∈ schemes → StandsFor s d := by
      intro p hp d hd
      obtain ⟨a, rfl⟩ := (hasPrefix_iff' _ _).1 hp
      exact .scheme _ _ _ hd
    split at h
    · rename_i h0
      injection h with h; subst h
      rw [Bool.or_eq_true] at h0; rcases h0 with h0 | h0 <;> exact hpre _ h0 _ (by decide)
    rename_i n1
    split at h
    · rename_i h0
      injection h with h; subst h
      exact hpre _ h0 _ (by decide)
    rename_i n2
    split at h
    · rename_i h0
      injection h with h; subst h
      exact hpre _ h0 _ (by decide)
    rename_i n3
    split at h
    · rename_i h0
      injection h with h; subst h
      exact hpre _ h0 _ (by decide)
    rename_i n4
    split at h
    · rename_i h0
      injection h with h; subst h
      exact hpre _ h0 _ (by decide)
    rename_i n5
    have hns : ¬ HasScheme s := by
      rintro ⟨p, hp, r, h0⟩
      have h1 := (hasPrefix_iff' s p.1).2 ⟨r, h0⟩
      simp only [schemes, List.mem_cons, List.not_mem_nil, or_false] at hp
      rcases hp with rfl | rfl | rfl | rfl | rfl | rfl
      · exact n1 (by rw [h1]; rfl)
      · exact n1 (by rw [h1]; simp)
      · exact n2 h1
      · exact n3 h1
      · exact n4 h1
      · exact n5 h1
    have hadd : (contains b!"@tcp(" s || contains b!"@unix(" s) = true ↔ HasAddress s := by
      rw [Bool.or_eq_true, contains_iff _ _ (List.cons_ne_nil _ _),
        contains_iff _ _ (List.cons_ne_nil _ _)]
      simp [HasAddress, addresses]
    split at h
    · rename_i h0
      injection h with h; subst h
      exact .address s hns (hadd.1 h0)
    rename_i hna
    split at h
    · rename_i h0
      injection h with h; subst h
      exact .file s hns (fun h => hna (hadd.2 h)) ((isFile_iff s).1 h0)
    · simp at h
  · intro h
    have hpre : ∀ s, ¬ HasScheme s → (hasPrefix s b!"sqlite:" || hasPrefix s b!"sqlite3:") = false ∧
        hasPrefix s b!"postgres://" = false ∧ hasPrefix s b!"mysql://" = false ∧
        hasPrefix s b!"sqlserver://" = false ∧ hasPrefix s b!"oracle://" = false := by
      intro s h
      have : ∀ p ∈ schemes, hasPrefix s p.1 = false := by
        intro p hp
        rw [Bool.eq_false_iff, ne_eq, hasPrefix_iff']
        exact fun ⟨a, ha⟩ => h ⟨p, hp, a, ha⟩
      simp [schemes] at this
      simp [this]
    have hadd : (contains b!"@tcp(" s || contains b!"@unix(" s) = true ↔ HasAddress s := by
      rw [Bool.or_eq_true, contains_iff _ _ (List.cons_ne_nil _ _),
        contains_iff _ _ (List.cons_ne_nil _ _)]
      simp [HasAddress, addresses]
    cases h with
    | scheme p d rest hp =>
      simp [schemes] at hp
      rcases hp with ⟨rfl, rfl⟩ | ⟨rfl, rfl⟩ | ⟨rfl, rfl⟩ | ⟨rfl, rfl⟩ | ⟨rfl, rfl⟩ | ⟨rfl, rfl⟩ <;>
        simp [dsnDialect, hasPrefix, List.isPrefixOf]
    | address s h1 h2 =>
      obtain ⟨a, b, c, d, e⟩ := hpre s h1
      simp only [dsnDialect, a, b, c, d, e, hadd.2 h2]
      rfl
    | file s h1 h2 h3 =>
      obtain ⟨a, b, c, d, e⟩ := hpre s h1
      rw [← hadd, Bool.not_eq_true] at h2
      simp only [dsnDialect, a, b, c, d, e, h2, (isFile_iff s).2 h3]
      rfl

/-- No other dialect: `other` stands for the dialects NormalizeDSN does not know. -/
theorem standsFor_known {s d} (h : StandsFor s d) : d ≠ .other := by
  cases h with
  | scheme p d rest hp => simp [schemes] at hp; grind
  | address => simp
  | file => simp

/-- the dialect NormalizeDSN returns -/
def resultDialect (r : Option (Dialect × Str × Str)) : Option Dialect := r.map (·.1)

theorem normalizeDSN_text (o : Str → OpenResult) (drivers : Dialect → Option DsnDriver) (s : Str) (t : Str)
    (h : fileDsn o s = .ok t) (d : Dialect) :
    resultDialect (normalizeDSN o drivers s) = some d ↔ StandsFor t d := by
  rw [← dsnDialect_iff]
  unfold normalizeDSN
  rw [h]
  simp only
  cases hd : dsnDialect t with
  | none => simp [resultDialect]
  | some d' =>
    have hk := standsFor_known ((dsnDialect_iff _ _).1 hd)
    simp only
    split
    · split <;> simp [resultDialect]
    · cases d' <;> simp [defaultDsn, resultDialect] at hk ⊢

/-- **C54**: a URL that is not a `file:` URL gets the dialect it stands for, and none if it stands
for none, whatever drivers are registered. -/
theorem normalizeDSN_dialect (o : Str → OpenResult) (drivers : Dialect → Option DsnDriver) (s : Str)
    (hf : ¬ ∃ r, s = b!"file:" ++ r) (d : Dialect) :
    resultDialect (normalizeDSN o drivers s) = some d ↔ StandsFor s d := by
  apply normalizeDSN_text
  unfold fileDsn
  rw [if_neg]
  rw [hasPrefix_iff']
  exact hf

example : ¬ (∃ r, b!"postgres://u:p@h:5432/db?sslmode=disable" = b!"file:" ++ r) ∧
    StandsFor b!"postgres://u:p@h:5432/db?sslmode=disable" .postgres := by
  refine ⟨by rintro ⟨r, h⟩; simp at h, .scheme b!"postgres://" _ b!"u:p@h:5432/db?sslmode=disable" (by decide)⟩

/-- **C54**: no URL stands for two dialects. -/
theorem standsFor_unique (s : Str) (d e : Dialect) (h1 : StandsFor s d) (h2 : StandsFor s e) : d = e := by
  rw [← dsnDialect_iff] at h1 h2
  rw [h1] at h2
  exact Option.some.inj h2

example : StandsFor b!"user:pass@tcp(localhost:3306)/a.db" .mysql :=
  (dsnDialect_iff _ _).1 (by decide)

/-- The name of the file a `file:` URL points to. -/
def fileName (rest : Str) : Str := beforeQuery (trimPrefix rest b!"//")

theorem fileDsn_file (o : Str → OpenResult) (rest : Str) : fileDsn o (b!"file:" ++ rest) =
    match o (fileName rest) with
    | .notExist => if sqliteSuffix (fileName rest) then
        .error (some (.sqlite, b!"sqlite3", b!"file:" ++ rest)) else .error none
    | .otherError => .error none
    | .unreadable => .error none
    | .contents s =>
      if s.length < 16 then .error none
      else if s.take 16 = sqliteHeader then .ok (b!"sqlite:" ++ (b!"file:" ++ rest))
      else .ok (trimSpace s) := by
  unfold fileDsn
  rw [if_pos (hasPrefix_append _ _)]
  have : trimPrefix (b!"file:" ++ rest) b!"file:" = rest := by
    unfold trimPrefix
    rw [if_pos (hasPrefix_append _ _)]
    simp
  rw [this]
  rfl

/-- **C54, partial**: a `file:` URL of a text file of at least 16 bytes gets the dialect the text
stands for.  Missing: shorter files, see `normalizeDSN_file_refuted`. -/
theorem normalizeDSN_file_partial (o : Str → OpenResult) (drivers : Dialect → Option DsnDriver)
    (rest pre url post : Str) (h : o (fileName rest) = .contents (pre ++ url ++ post))
    (h1 : ∀ c ∈ pre, isSpace c = true) (h2 : ∀ c ∈ post, isSpace c = true)
    (h3 : trimSpace url = url) (hl : 16 ≤ (pre ++ url ++ post).length)
    (hh : (pre ++ url ++ post).take 16 ≠ sqliteHeader) (d : Dialect) :
    resultDialect (normalizeDSN o drivers (b!"file:" ++ rest)) = some d ↔ StandsFor url d := by
  apply normalizeDSN_text
  rw [fileDsn_file, h]
  simp only
  rw [if_neg (by omega), if_neg hh, trimSpace_pad _ _ _ h1 h2, h3]

/-- **C54**: a `file:` URL of an SQLite database is the database itself. -/
theorem normalizeDSN_file_sqlite (o : Str → OpenResult) (rest tail : Str)
    (h : o (fileName rest) = .contents (sqliteHeader ++ tail)) :
    normalizeDSN o (fun _ => none) (b!"file:" ++ rest) = some (.sqlite, b!"sqlite3", b!"file:" ++ rest) := by
  unfold normalizeDSN
  rw [fileDsn_file, h]
  have hl : sqliteHeader.length = 16 := by decide
  simp only [List.length_append, hl, Nat.not_lt.2 (Nat.le_add_right 16 _), if_false]
  rw [if_pos (by rw [← hl]; simp)]
  simp [dsnDialect, defaultDsn, hasPrefix, trimPrefix]

/-- **C54**: a `file:` URL of a file that does not exist is a new SQLite database if it has the name
of one, and nothing otherwise. -/
theorem normalizeDSN_file_missing (o : Str → OpenResult) (drivers : Dialect → Option DsnDriver)
    (rest : Str) (h : o (fileName rest) = .notExist) :
    ((∃ a, ∃ e ∈ endings, fileName rest = a ++ e) →
      normalizeDSN o drivers (b!"file:" ++ rest) = some (.sqlite, b!"sqlite3", b!"file:" ++ rest)) ∧
    ((¬ ∃ a, ∃ e ∈ endings, fileName rest = a ++ e) →
      normalizeDSN o drivers (b!"file:" ++ rest) = none) := by
  unfold normalizeDSN
  rw [fileDsn_file, h, ← sqliteSuffix_iff]
  constructor
  · intro h1
    simp [h1]
  · intro h1
    rw [Bool.not_eq_true] at h1
    simp [h1]

/-- **C54, refuted** for short files: the URL `sqlite:a.db` is understood on its own, but not if it is
read from a file, since a file of fewer than 16 bytes is refused. -/
theorem normalizeDSN_file_refuted :
    ∃ o : Str → OpenResult, o b!"url.txt" = .contents b!"sqlite:a.db\n" ∧
      normalizeDSN o (fun _ => none) b!"sqlite:a.db" = some (.sqlite, b!"sqlite3", b!"a.db") ∧
      normalizeDSN o (fun _ => none) b!"file:url.txt" = none :=
  ⟨fun _ => .contents b!"sqlite:a.db\n", rfl, by decide, by decide⟩

/-- The hypotheses of the theorems about files are met by these files. -/
example : ∃ o : Str → OpenResult, fileName b!"//url.txt?x" = b!"url.txt" ∧
    normalizeDSN o (fun _ => none) b!"file://url.txt?x" = some (.mysql, b!"mysql", b!"u:p@tcp(h)/d") :=
  ⟨fun _ => .contents b!" mysql://u:p@tcp(h)/d\n", by decide, by decide⟩

/-- **C54**: without a registered driver, the scheme is removed for SQLite and MySQL, whose drivers
do not know it, and kept for the others. -/
theorem normalizeDSN_default (o : Str → OpenResult) (rest : Str) :
    (∀ p ∈ [b!"sqlite:", b!"sqlite3:"], (¬ ∃ r, rest = b!"//" ++ r) →
      normalizeDSN o (fun _ => none) (p ++ rest) = some (.sqlite, b!"sqlite3", rest) ∧
      normalizeDSN o (fun _ => none) (p ++ b!"//" ++ rest) = some (.sqlite, b!"sqlite3", rest)) ∧
    normalizeDSN o (fun _ => none) (b!"mysql://" ++ rest) = some (.mysql, b!"mysql", rest) ∧
    ∀ p ∈ [(b!"postgres://", Dialect.postgres, b!"postgres"), (b!"sqlserver://", .sqlserver, b!"sqlserver"),
      (b!"oracle://", .oracle, b!"oracle")],
      normalizeDSN o (fun _ => none) (p.1 ++ rest) = some (p.2.1, p.2.2, p.1 ++ rest) := by
  refine ⟨?_, ?_, ?_⟩
  · intro p hp hr
    have h0 : trimPrefix rest b!"//" = rest := by
      unfold trimPrefix
      rw [if_neg (by rw [hasPrefix_iff']; exact hr)]
    simp only [List.mem_cons, List.not_mem_nil, or_false] at hp
    rcases hp with rfl | rfl <;>
      constructor <;>
      simp [normalizeDSN, fileDsn, dsnDialect, defaultDsn, hasPrefix, trimPrefix] <;>
      simpa [trimPrefix, hasPrefix] using h0
  · simp [normalizeDSN, fileDsn, dsnDialect, defaultDsn, hasPrefix, trimPrefix]
  · intro p hp
    simp only [List.mem_cons, List.not_mem_nil, or_false] at hp
    rcases hp with rfl | rfl | rfl <;>
      simp [normalizeDSN, fileDsn, dsnDialect, defaultDsn, hasPrefix]

example : ¬ ∃ r, b!"/tmp/a.db" = b!"//" ++ r := by rintro ⟨r, h⟩; simp at h

/-- **C54, refuted** for the SQLite driver that comes with the command: it does not remove the scheme
`sqlite3:`, so a different database is opened than with `sqlite:`, whatever the options. -/
theorem sqlite3_scheme_refuted (o : Str → OpenResult) (query : Str → Option Str) :
    let drivers := fun d => if d = Dialect.sqlite then
      some (DsnDriver.mk b!"sqlite3" (some (sqlite3Preprocess query))) else none
    (∃ t, normalizeDSN o drivers b!"sqlite:a.db" = some (.sqlite, b!"sqlite3", t) ∧
      hasPrefix t b!"a.db" = true) ∧
    ∃ t, normalizeDSN o drivers b!"sqlite3:a.db" = some (.sqlite, b!"sqlite3", t) ∧
      hasPrefix t b!"sqlite3:a.db" = true := by
  intro drivers
  constructor
  · refine ⟨sqlite3Preprocess query b!"sqlite:a.db", rfl, ?_⟩
    unfold sqlite3Preprocess
    simp only
    split
    · decide
    · exact hasPrefix_append (beforeQuery b!"a.db") _
  · refine ⟨sqlite3Preprocess query b!"sqlite3:a.db", rfl, ?_⟩
    unfold sqlite3Preprocess
    simp only
    split
    · decide
    · exact hasPrefix_append (beforeQuery b!"sqlite3:a.db") _

end Sqddl
