import Verif.Model.PostgresSql
import Verif.Model.MysqlSql
import Verif.Props.DiffAlter
import Verif.Props.Types
import Verif.Props.PqArray
import Verif.Spec.TypeChange

/-!
# Warnings about changes of column types

C40: which changes of the type of a column make `generate` and `automigrate` warn (MySQL and
Postgres); C33: the migration of a catalog to itself has no file and no warning.
-/

namespace Sqddl
open Go CatalogSpec DdlSpec TypeSpec Sqddl.Files

/-! ## What the types are normalised to -/

/-- the first argument as text -/
def arg1 (xs : List Nat) : Str := (xs[0]?.map digits).getD []
/-- the second argument as text -/
def arg2 (xs : List Nat) : Str := (xs[1]?.map digits).getD []

theorem upperC_digit {c : Char} (h : isDigit c = true) : upperC c = c := by
  have h' : 48 ≤ c.toNat ∧ c.toNat ≤ 57 := by simpa [isDigit, Char.le_def, UInt32.le_iff_toNat_le] using h
  unfold upperC
  rw [if_neg]
  rintro ⟨h1, _⟩
  rw [Char.le_def, UInt32.le_iff_toNat_le] at h1
  have h4 : 'a'.val.toNat = 97 := by decide
  have : c.val.toNat = c.toNat := rfl
  omega

theorem digits_isDigit (n : Nat) : ∀ c ∈ digits n, isDigit c = true := PqArray.toDigits_digits n

theorem toUpper_digits (n : Nat) : toUpper (digits n) = digits n := by
  unfold toUpper
  conv => rhs; rw [← List.map_id (digits n)]
  exact List.map_congr_left fun c hc => upperC_digit (digits_isDigit n c hc)

theorem digit_notSpace {c : Char} (h : isDigit c = true) : isSpace c = false := by
  cases hs : isSpace c
  · rfl
  · exfalso
    have : c = ' ' ∨ c = '\t' ∨ c = '\n' ∨ c = '\x0d' ∨ c = '\x0b' ∨ c = '\x0c' := by
      simpa [isSpace, or_assoc] using hs
    rcases this with rfl | rfl | rfl | rfl | rfl | rfl <;> revert h <;> decide

theorem trimSpace_noSpace {s : Str} (h : ∀ c ∈ s, isSpace c = false) : trimSpace s = s := by
  have hd : ∀ s : Str, (∀ c ∈ s, isSpace c = false) → s.dropWhile isSpace = s := by
    intro s h
    cases s with
    | nil => rfl
    | cons c s => simp [h c (by simp)]
  unfold trimSpace
  rw [hd s h, hd s.reverse (by simpa using h), List.reverse_reverse]

theorem argPair_args (n : Nat) (ns : List Nat) (h : ns.length ≤ 1) :
    argPair (digits n ++ (ns.flatMap fun m => ',' :: digits m)) = (arg1 (n :: ns), arg2 (n :: ns)) := by
  have hsp : ∀ n, ∀ c ∈ digits n, isSpace c = false :=
    fun n c hc => digit_notSpace (digits_isDigit n c hc)
  have hcm : ∀ n, ',' ∉ digits n := fun n hc => absurd (digits_isDigit n _ hc) (by decide)
  match ns, h with
  | [], _ =>
    unfold argPair
    simp only [List.flatMap_nil, List.append_nil]
    rw [trimSpace_noSpace (hsp n), (indexByte_none (digits n) ',').2 (hcm n)]
    simp [arg1, arg2, trimSpace_noSpace (hsp n)]
  | [m], _ =>
    have h1 : trimSpace (digits n ++ ',' :: digits m) = digits n ++ ',' :: digits m :=
      trimSpace_noSpace (by
        intro c hc
        simp only [List.mem_append, List.mem_cons] at hc
        rcases hc with hc | rfl | hc
        · exact hsp n c hc
        · decide
        · exact hsp m c hc)
    have h2 : indexByte (digits n ++ ',' :: digits m) ',' = some (digits n).length := by
      unfold indexByte
      rw [List.findIdx?_append, show List.findIdx? (· == ',') (digits n) = none from
        (indexByte_none (digits n) ',').2 (hcm n), List.findIdx?_cons]
      simp
    unfold argPair
    simp only [List.flatMap_cons, List.flatMap_nil, List.append_nil]
    rw [h1, h2]
    simp [arg1, arg2, trimSpace_noSpace (hsp n), trimSpace_noSpace (hsp m)]

theorem typeArgs_written {u : Str} (hu : '(' ∉ u) (hu' : ')' ∉ u) (ht : trimSpace u = u)
    {xs : List Nat} (hx : xs.length ≤ 2) :
    typeArgs (u ++ argsText xs) = some (u, arg1 xs, arg2 xs, []) := by
  cases xs with
  | nil => rw [argsText, List.append_nil, typeArgs_plain _ hu']; rfl
  | cons n ns =>
    rw [argsText, typeArgs_brackets _ _ hu, argPair_args n ns (by simpa using hx), ht]

theorem toUpper_args (xs : List Nat) : toUpper (argsText xs) = argsText xs := by
  have happ : ∀ a b : Str, toUpper (a ++ b) = toUpper a ++ toUpper b := fun a b => by simp [toUpper]
  have hcons : ∀ c (b : Str), toUpper (c :: b) = upperC c :: toUpper b := fun c b => by simp [toUpper]
  cases xs with
  | nil => rfl
  | cons n ns =>
    have : toUpper (ns.flatMap fun m => ',' :: digits m) = ns.flatMap fun m => ',' :: digits m := by
      induction ns with
      | nil => rfl
      | cons m ns ih => rw [List.flatMap_cons, happ, hcons, ih, toUpper_digits]; rfl
    rw [argsText, hcons, happ, happ, toUpper_digits, this]; rfl

theorem trimSpace_args {u : Str} (hu : u ≠ []) (h : ∀ c, u.head? = some c → isSpace c = false)
    (ht : trimSpace u = u) (xs : List Nat) :
    trimSpace (u ++ argsText xs) = u ++ argsText xs := by
  cases xs with
  | nil => rw [argsText, List.append_nil, ht]
  | cons n ns =>
    cases u with
    | nil => exact absurd rfl hu
    | cons c u =>
      rw [argsText, show c :: u ++ '(' :: (digits n ++ (ns.flatMap fun m => ',' :: digits m) ++ [')']) =
        c :: (u ++ '(' :: (digits n ++ (ns.flatMap fun m => ',' :: digits m))) ++ [')'] by simp]
      exact trimSpace_eq_self _ _ _ (h c rfl) (by decide)

/-- The result of typeArgs for a type that is written as one of the names. -/
theorem typeArgs_of_written {names : List Str} {xs : List Nat} {s : Str} (h : Written names xs s)
    (hx : xs.length ≤ 2)
    (hn : ∀ n ∈ names, '(' ∉ toUpper n ∧ ')' ∉ toUpper n ∧ trimSpace (toUpper n) = toUpper n ∧
      n ≠ [] ∧ isSpace (toUpper n).head! = false) :
    ∃ n ∈ names, typeArgs (toUpper (trimSpace s)) = some (toUpper n, arg1 xs, arg2 xs, []) := by
  obtain ⟨n, hm, hs⟩ := h
  obtain ⟨h1, h2, h3, h4, h5⟩ := hn n hm
  refine ⟨n, hm, ?_⟩
  have happ : ∀ a b : Str, toUpper (a ++ b) = toUpper a ++ toUpper b := fun a b => by simp [toUpper]
  have hne : toUpper n ≠ [] := by simpa [toUpper] using h4
  rw [toUpper_trimSpace, toUpper_same hs, happ, toUpper_args,
    trimSpace_args hne (fun c hc => by
      cases hh : toUpper n with
      | nil => exact absurd hh hne
      | cons a b => rw [hh] at hc h5; simp at hc; subst hc; exact h5) h3,
    typeArgs_written h1 h2 h3 hx]

theorem normType_written {d : Dialect} {names : List Str} {canon : Str} {xs : List Nat} {s : Str}
    (h : Written names xs s) (hx : xs.length ≤ 2)
    (hn : ∀ n ∈ names, '(' ∉ toUpper n ∧ ')' ∉ toUpper n ∧ trimSpace (toUpper n) = toUpper n ∧
      n ≠ [] ∧ isSpace (toUpper n).head! = false)
    (hc : ∀ n ∈ names, (d = .postgres ∧ pgType (toUpper n) [] = canon) ∨
      (d = .mysql ∧ ∀ a b, mysqlType (toUpper n) a b = (canon, a, b))) :
    normType d s = (canon, arg1 xs, arg2 xs) := by
  obtain ⟨n, hm, ht⟩ := typeArgs_of_written h hx hn
  unfold normType normalizeColumnType
  rw [ht]
  rcases hc n hm with ⟨rfl, h1⟩ | ⟨rfl, h1⟩
  · simp [h1]
  · simp [h1]

theorem pg_varchar {xs : List Nat} {s : Str} (h : Written (varcharNames .postgres) xs s)
    (hx : xs.length ≤ 2) : normType .postgres s = (b!"VARCHAR", arg1 xs, arg2 xs) :=
  normType_written h hx (by decide +kernel) (fun n hn => .inl ⟨rfl, by
    revert hn; revert n; decide +kernel⟩)

theorem pg_numeric {xs : List Nat} {s : Str} (h : Written numericNames xs s)
    (hx : xs.length ≤ 2) : normType .postgres s = (b!"NUMERIC", arg1 xs, arg2 xs) :=
  normType_written h hx (by decide +kernel) (fun n hn => .inl ⟨rfl, by
    revert hn; revert n; decide +kernel⟩)

theorem pg_plain {n : Str} {s : Str} (h : Written [n] [] s)
    (hn : n ∈ [b!"text", b!"cidr", b!"inet"]) : normType .postgres s = (toUpper n, [], []) :=
  normType_written h (by decide) (by
    intro m hm; rw [List.mem_singleton] at hm; subst hm; clear h; revert hn; revert m; decide +kernel)
    (fun m hm => .inl ⟨rfl, by
      rw [List.mem_singleton] at hm; subst hm; clear h; revert hn; revert m; decide +kernel⟩)

theorem mysql_varchar {xs : List Nat} {s : Str} (h : Written (varcharNames .mysql) xs s)
    (hx : xs.length ≤ 2) : normType .mysql s = (b!"VARCHAR", arg1 xs, arg2 xs) :=
  normType_written h hx (by decide +kernel) (fun n hn => .inr ⟨rfl, by
    intro a b
    have : n = b!"varchar" := by simpa [varcharNames] using hn
    subst this
    rfl⟩)

theorem atoi0_digits {n : Nat} (h : n < 2 ^ 63) : atoi0 (digits n) = n := by
  have := PqArray.parseInt64_formatInt (n : Int) ⟨by omega, by omega⟩
  unfold atoi0
  rw [show digits n = formatInt (n : Int) from rfl, this]

theorem atoi0_nil : atoi0 [] = 0 := by decide

/-! ## The warnings of a migration -/

theorem diffEvents_mysql (src dest : Catalog) (drop : Bool) :
    mysqlEvents src dest drop = diffEvents .mysql src dest drop := rfl

theorem diffEvents_postgres (src dest : Catalog) (drop : Bool) :
    pgEvents src dest drop = diffEvents .postgres src dest drop := rfl

theorem alterColumns_eq {d : Dialect} (hd : d = .mysql ∨ d = .postgres) {src dest : Catalog}
    (hsrc : Ok src) (drop : Bool) {p : Table × Table} (hp : p ∈ commonTables src dest) :
    (alterTableOf d (diffEnv src dest drop) p.1 p.2).alterColumns =
      (CatalogSpec.commonColumns p.1 p.2).filter fun q =>
        columnsAreDifferent d src.defaultCollation q.1 q.2 := by
  have := commonColumns_eq hsrc (inCatalog_live (mem_commonTables hp).1) p.2
  rw [← this]
  rcases hd with rfl | rfl <;> rfl

theorem normType_unchanged {d : Dialect} (hd : d = .mysql ∨ d = .postgres) {coll : Str}
    {a b : Column} (h : columnsAreDifferent d coll a b = false) :
    normType d a.columnType = normType d b.columnType := by
  rcases hd with rfl | rfl <;>
  · unfold columnsAreDifferent at h
    simp only [Bool.or_eq_false_iff, decide_eq_false_iff_not, Decidable.not_not] at h
    exact h.1.1.1.1

theorem filterMap_toList {α β : Type} (f : α → Option β) (xs : List α) :
    xs.filterMap f = xs.flatMap fun x => (f x).toList := by
  induction xs with
  | nil => rfl
  | cons x xs ih =>
    rw [List.filterMap_cons, List.flatMap_cons, ih]
    cases f x <;> rfl

theorem flatMap_filter_nil {α β : Type} (f : α → List β) (p : α → Bool) (xs : List α)
    (h : ∀ x, p x = false → f x = []) : (xs.filter p).flatMap f = xs.flatMap f := by
  induction xs with
  | nil => rfl
  | cons x xs ih =>
    rw [List.filter_cons, List.flatMap_cons]
    split
    · rw [List.flatMap_cons, ih]
    · rename_i hx; rw [h x (by simpa using hx), ih]; rfl

/-- The warnings of an alterTable, for a field-wise function that is empty for an alterTable without
added and altered columns. -/
theorem warnings_eq {d : Dialect} (hd : d = .mysql ∨ d = .postgres) {src dest : Catalog}
    (hsrc : Ok src) (hdest : Ok dest) (drop : Bool) (f : AlterTable → List Warning)
    (hf : ∀ a, a.addColumns = [] → a.alterColumns = [] → f a = []) :
    ((diffEvents d src dest drop).filterMap Ev.alter?).flatMap f =
      (commonTables src dest).flatMap fun p =>
        f (alterTableOf d (diffEnv src dest drop) p.1 p.2) := by
  rw [alters_eq (by rcases hd with rfl | rfl <;> simp [Server]) hsrc hdest, List.flatMap_assoc]
  refine flatMap_congr' fun p _ => ?_
  dsimp only
  split
  · rw [List.flatMap_cons]; simp
  · rename_i h
    rw [hf]
    · rfl
    · simp [AlterTable.worthKeeping] at h; grind
    · simp [AlterTable.worthKeeping] at h; grind

/-- The table of a warning, as text. -/
def warnTable (d : Dialect) (cur : Str) (t : Table) : Str :=
  Wipe.qualified d cur t.tableSchema t.tableName

/-- MySQL: all columns that exist in both catalogs are looked at, each once. -/
theorem mysql_warnings_exact {src dest : Catalog} (hsrc : Ok src) (hdest : Ok dest) (drop : Bool)
    (pre : Str) :
    (Mysql.migration pre src dest drop).2 =
      (commonTables src dest).flatMap fun p =>
        (CatalogSpec.commonColumns p.1 p.2).flatMap fun q =>
          ((Mysql.typeWarning q.1 q.2).map fun w =>
            (⟨warnTable .mysql src.currentSchema p.2, q.2.columnName, w⟩ : Warning)).toList := by
  have h := warnings_eq (.inl rfl) hsrc hdest drop (fun a => a.alterColumns.filterMap fun p =>
    (Mysql.typeWarning p.1 p.2).map fun w =>
      (⟨Wipe.qualified .mysql src.currentSchema a.destTable.tableSchema a.destTable.tableName,
        p.2.columnName, w⟩ : Warning)) (fun a _ h => by rw [h]; rfl)
  refine Eq.trans h (flatMap_congr' fun p hp => ?_)
  rw [alterColumns_eq (.inl rfl) hsrc drop hp, alterTableOf_destTable (by simp [Server]),
    filterMap_toList]
  refine flatMap_filter_nil _ _ _ fun q hq => ?_
  have := normType_unchanged (.inl rfl) hq
  simp [Mysql.typeWarning, this]

/-- Postgres: all columns that are new or exist in both catalogs are looked at, each once. -/
theorem pg_warnings_exact {src dest : Catalog} (hsrc : Ok src) (hdest : Ok dest) (drop : Bool)
    (isFloat : Str → Bool) (pre : Str) :
    (Postgres.migration isFloat pre src dest drop).2 =
      (commonTables src dest).flatMap fun p =>
        (((liveColumns p.2).filter fun c => !hasColumn p.1 c.columnName).flatMap fun c =>
          ((Postgres.addWarning ⟨src.versionNums, src.currentSchema, src.defaultCollation, isFloat⟩
            c).map fun w =>
            (⟨warnTable .postgres src.currentSchema p.2, w.1, w.2⟩ : Warning)).toList) ++
        (CatalogSpec.commonColumns p.1 p.2).flatMap fun q =>
          (Postgres.typeWarnings q.1 q.2 ++
            (if columnsAreDifferent .postgres src.defaultCollation q.1 q.2 then
              Postgres.notNullWarnings
                ⟨src.versionNums, src.currentSchema, src.defaultCollation, isFloat⟩ q.1 q.2
             else [])).map fun w =>
            (⟨warnTable .postgres src.currentSchema p.2, q.2.columnName, w⟩ : Warning) := by
  refine Eq.trans (warnings_eq (.inr rfl) hsrc hdest drop (fun a =>
    (a.addColumns.filterMap fun c => (Postgres.addWarning
      ⟨src.versionNums, src.currentSchema, src.defaultCollation, isFloat⟩ c).map fun w =>
      (⟨Postgres.tableSql ⟨src.versionNums, src.currentSchema, src.defaultCollation, isFloat⟩
        a.destTable.tableSchema a.destTable.tableName, w.1, w.2⟩ : Warning)) ++
    a.alterColumns.flatMap fun p => (Postgres.typeWarnings p.1 p.2 ++ Postgres.notNullWarnings
      ⟨src.versionNums, src.currentSchema, src.defaultCollation, isFloat⟩ p.1 p.2).map fun w =>
      (⟨Postgres.tableSql ⟨src.versionNums, src.currentSchema, src.defaultCollation, isFloat⟩
        a.destTable.tableSchema a.destTable.tableName, p.2.columnName, w⟩ : Warning))
    (fun a h1 h2 => by rw [h1, h2]; rfl)) (flatMap_congr' fun p hp => ?_)
  rw [alterColumns_eq (.inr rfl) hsrc drop hp, alterTableOf_destTable (by simp [Server]),
    filterMap_toList]
  congr 1
  · congr 1
    exact missingColumns_eq hsrc (inCatalog_live (mem_commonTables hp).1) p.2
  · rw [← flatMap_filter_nil (fun q : Column × Column => (Postgres.typeWarnings q.1 q.2 ++
      (if columnsAreDifferent .postgres src.defaultCollation q.1 q.2 then
        Postgres.notNullWarnings
          ⟨src.versionNums, src.currentSchema, src.defaultCollation, isFloat⟩ q.1 q.2
       else [])).map fun w =>
      (⟨warnTable .postgres src.currentSchema p.2, q.2.columnName, w⟩ : Warning))
      (fun q => columnsAreDifferent .postgres src.defaultCollation q.1 q.2)]
    · refine flatMap_congr' fun q hq => ?_
      rw [if_pos (List.mem_filter.1 hq).2]
      rfl
    · intro q hq
      have := normType_unchanged (.inr rfl) hq
      rw [hq]
      simp [Postgres.typeWarnings, this]

/-! ## C40: Postgres -/

/-- The migration warns about the type of this column. -/
def TypeWarned (d : Dialect) (cur : Str) (t : Table) (c : Column) (ws : List Warning) : Prop :=
  ∃ w ∈ ws, w.table = warnTable d cur t ∧ w.column = c.columnName ∧
    w.about ∈ [.type, .limit, .precision, .scale]

section
variable {src dest : Catalog} (hsrc : Ok src) (hdest : Ok dest) (drop : Bool)
  (isFloat : Str → Bool) (pre : Str) {p : Table × Table} (hp : p ∈ commonTables src dest)
  {q : Column × Column} (hq : q ∈ CatalogSpec.commonColumns p.1 p.2)
include hsrc hdest hp hq

theorem pg_warned {w : Unsafe} (hw : w ∈ Postgres.typeWarnings q.1 q.2) :
    TypeWarned .postgres src.currentSchema p.2 q.2
      (Postgres.migration isFloat pre src dest drop).2 := by
  refine ⟨⟨warnTable .postgres src.currentSchema p.2, q.2.columnName, w⟩, ?_, rfl, rfl, ?_⟩
  · rw [pg_warnings_exact hsrc hdest]
    refine List.mem_flatMap.2 ⟨p, hp, List.mem_append_right _ (List.mem_flatMap.2 ⟨q, hq, ?_⟩)⟩
    exact List.mem_map.2 ⟨w, List.mem_append_left _ hw, rfl⟩
  · unfold Postgres.typeWarnings Postgres.warnIf at hw
    grind

/-- **C40**, Postgres: giving a VARCHAR with a limit a limit below which some old value is too long
adds a warning. -/
theorem pg_varchar_narrowing_warned {n m : Nat} (hn : n < 2 ^ 63) (hm : 0 < m)
    (h1 : Written (varcharNames .postgres) [n] q.1.columnType)
    (h2 : Written (varcharNames .postgres) [m] q.2.columnType)
    (h : Narrows VarcharFits [n] [m]) :
    TypeWarned .postgres src.currentSchema p.2 q.2
      (Postgres.migration isFloat pre src dest drop).2 := by
  obtain ⟨v, hv1, hv2⟩ := h
  simp only [VarcharFits] at hv1 hv2
  refine pg_warned hsrc hdest drop isFloat pre hp hq (w := .limit) ?_
  have e1 := pg_varchar h1 (by simp)
  have e2 := pg_varchar h2 (by simp)
  have a1 : atoi0 (arg1 [n]) = n := atoi0_digits hn
  have a2 : atoi0 (arg1 [m]) = m := atoi0_digits (by omega)
  unfold Postgres.typeWarnings Postgres.warnIf
  dsimp only
  rw [e1, e2]
  dsimp only
  rw [if_neg, if_neg (by simp), if_neg (by simp), if_pos (by simp), a1, a2, if_pos]
  · simp
  · simp; omega
  · intro h
    have h : arg1 [n] = arg1 [m] := congrArg (fun x : Str × Str × Str => x.2.1) h
    rw [← h, a1] at a2
    omega

/-- **C40**, Postgres, partial: the same for a NUMERIC whose new scale is not 0 or did not change.
Missing: a new scale of 0 (see `pg_numeric_scale_refuted`). -/
theorem pg_numeric_narrowing_warned_partial {xs ys : List Nat} (hxs : Small xs) (hys : Small ys)
    (hx : ∀ x ∈ xs.head?, 0 < x) (hy : ∀ y ∈ ys.head?, 0 < y)
    (h1 : Written numericNames xs q.1.columnType) (h2 : Written numericNames ys q.2.columnType)
    (h : Narrows NumericFits xs ys) (hs : scale ys ≠ 0 ∨ (xs ≠ [] ∧ scale xs = scale ys)) :
    TypeWarned .postgres src.currentSchema p.2 q.2
      (Postgres.migration isFloat pre src dest drop).2 := by
  obtain ⟨v, hv1, hv2⟩ := h
  have e1 := pg_numeric h1 hxs.1
  have e2 := pg_numeric h2 hys.1
  have ha1 : ∀ zs : List Nat, Small zs → atoi0 (arg1 zs) = (zs.headD 0 : Nat) := by
    intro zs hz
    match zs, hz with
    | [], _ => exact atoi0_nil
    | a :: _, hz => exact atoi0_digits (hz.2 a (by simp))
  have ha2 : ∀ zs : List Nat, Small zs → atoi0 (arg2 zs) = (scale zs : Nat) := by
    intro zs hz
    match zs, hz with
    | [], _ => exact atoi0_nil
    | [_], _ => exact atoi0_nil
    | _ :: b :: _, hz => exact atoi0_digits (hz.2 b (by simp))
  have hx1 := ha1 xs hxs
  have hx2 := ha2 xs hxs
  have hy1 := ha1 ys hys
  have hy2 := ha2 ys hys
  have key : (scale xs ≠ scale ys ∧ scale ys ≠ 0) ∨
      (0 < xs.headD 0 ∧ 0 < ys.headD 0 ∧ ys.headD 0 < xs.headD 0) := by
    match xs, ys, hxs, hys with
    | xs, [], _, _ => exact absurd trivial hv2
    | [], [b], _, _ => simp [scale] at hs
    | [], [b, t], _, _ => simp [scale] at hs ⊢; omega
    | [a], [b], _, _ => simp [NumericFits, scale] at *; omega
    | [a], [b, t], _, _ => simp [NumericFits, scale] at *; omega
    | [a, s], [b], _, _ => simp [NumericFits, scale] at *; omega
    | [a, s], [b, t], _, _ => simp [NumericFits, scale] at *; omega
    | _ :: _ :: _ :: _, _, h, _ => have := h.1; simp at this
    | _, _ :: _ :: _ :: _, _, h => have := h.1; simp at this
  have hne : (b!"NUMERIC", arg1 xs, arg2 xs) ≠ (b!"NUMERIC", arg1 ys, arg2 ys) := by
    intro h
    have h3 : arg1 xs = arg1 ys := congrArg (fun x : Str × Str × Str => x.2.1) h
    have h4 : arg2 xs = arg2 ys := congrArg (fun x : Str × Str × Str => x.2.2) h
    rw [h3, hy1] at hx1
    rw [h4, hy2] at hx2
    omega
  have hex : ∃ w, w ∈ Postgres.typeWarnings q.1 q.2 := by
    unfold Postgres.typeWarnings Postgres.warnIf
    dsimp only
    rw [e1, e2]
    dsimp only
    rw [if_neg hne, if_neg (by simp), if_neg (by simp), if_neg (by simp), if_pos (by simp),
      hx1, hx2, hy1, hy2]
    rcases key with h | h
    · refine ⟨.scale, List.mem_append_left _ ?_⟩
      rw [if_pos (by simp; omega)]; simp
    · refine ⟨.precision, List.mem_append_right _ ?_⟩
      rw [if_pos]
      · simp
      · simp only [decide_eq_true_eq]; omega
  obtain ⟨w, hw⟩ := hex
  exact pg_warned hsrc hdest drop isFloat pre hp hq hw

/-- **C40**, Postgres: changing a column to a type with another meaning that is not listed as safe
adds a warning. -/
theorem pg_other_type_warned {n m : Str} (h1 : TypeText q.1.columnType n)
    (h2 : TypeText q.2.columnType m) (hn : n.head?.any fun c => !isSpace c)
    (hm : m.head?.any fun c => !isSpace c)
    (hne : typeMeaning .postgres (trimSpace n) ≠ typeMeaning .postgres (trimSpace m))
    (hl : ∀ x ∈ pgListed, ¬ (typeMeaning .postgres (trimSpace n) = (x.1, false) ∧
      typeMeaning .postgres (trimSpace m) = (x.2, false))) :
    TypeWarned .postgres src.currentSchema p.2 q.2
      (Postgres.migration isFloat pre src dest drop).2 := by
  have hnone : ∀ {s name : Str}, TypeText s name → normalizeColumnType .postgres s ≠ none := by
    intro s name h hnn
    rw [normalizeColumnType_panics] at hnn
    cases h with
    | plain _ h => exact h hnn.2
    | args name x _ => exact hnn.1 (by simp)
  obtain ⟨⟨a, a1, a2⟩, ha⟩ := Option.ne_none_iff_exists'.1 (hnone h1)
  obtain ⟨⟨b, b1, b2⟩, hb⟩ := Option.ne_none_iff_exists'.1 (hnone h2)
  have ma := normalizeColumnType_meaning_partial .postgres _ _ _ _ _ h1 hn ha (fun h => by cases h)
  have mb := normalizeColumnType_meaning_partial .postgres _ _ _ _ _ h2 hm hb (fun h => by cases h)
  rw [← ma, ← mb] at hne hl
  refine pg_warned hsrc hdest drop isFloat pre hp hq (w := .type) ?_
  have ea : normType .postgres q.1.columnType = (a, a1, a2) := by simp [normType, ha]
  have eb : normType .postgres q.2.columnType = (b, b1, b2) := by simp [normType, hb]
  have hab : a ≠ b := fun h => hne (by rw [h])
  unfold Postgres.typeWarnings
  dsimp only
  rw [ea, eb]
  dsimp only
  rw [if_neg (fun h => hab (congrArg Prod.fst h)), if_neg, if_neg, if_neg, if_neg]
  · simp
  · rintro ⟨rfl, rfl⟩; exact hab rfl
  · rintro ⟨rfl, rfl⟩; exact hab rfl
  · rintro ⟨rfl, rfl⟩
    exact hl (b!"text", b!"varchar") (by simp [pgListed]) (by decide +kernel)
  · rintro (⟨rfl, rfl⟩ | ⟨rfl, rfl⟩)
    · exact hl (b!"cidr", b!"inet") (by simp [pgListed]) (by decide +kernel)
    · exact hl (b!"varchar", b!"text") (by simp [pgListed]) (by decide +kernel)

end

instance (d : Dialect) (cur : Str) (t : Table) (c : Column) (ws : List Warning) :
    Decidable (TypeWarned d cur t c ws) :=
  inferInstanceAs (Decidable (∃ w ∈ ws, _))

theorem arg1_le {n m : Nat} (hm : m < 2 ^ 63) (h : n ≤ m) : ¬ atoi0 (arg1 [m]) < atoi0 (arg1 [n]) := by
  have a1 : atoi0 (arg1 [n]) = n := atoi0_digits (by omega)
  have a2 : atoi0 (arg1 [m]) = m := atoi0_digits hm
  omega

theorem arg1_head {n : Nat} (ns : List Nat) : arg1 (n :: ns) = arg1 [n] := rfl

theorem pg_typeWarnings_safe {s t : Column} (h : PgSafe s.columnType t.columnType) :
    Postgres.typeWarnings s t = [] := by
  unfold Postgres.typeWarnings Postgres.warnIf
  dsimp only
  split
  · rfl
  rename_i hne
  cases h with
  | same h =>
    refine absurd ?_ hne
    have := normalizeColumnType_case .postgres s.columnType t.columnType [] [] h (by simp) (by simp)
    rw [normType, normType]
    simp at this
    rw [this]
  | longer n m hnm hm h1 h2 =>
    have e1 := pg_varchar h1 (by simp)
    have e2 := pg_varchar h2 (by simp)
    have := arg1_le hm hnm
    rw [e1, e2]
    dsimp only
    rw [if_neg (by simp), if_neg (by simp), if_pos (by simp), if_neg]
    simp only [decide_eq_true_eq]
    grind
  | unlimited xs hx h1 h2 =>
    have e1 := pg_varchar h1 hx.1
    have e2 := pg_varchar h2 (by simp)
    have a : atoi0 (arg1 []) = 0 := atoi0_nil
    rw [e1, e2]
    dsimp only
    rw [if_neg (by simp), if_neg (by simp), if_pos (by simp), if_neg]
    simp only [decide_eq_true_eq, a]
    omega
  | varcharText xs hx h1 h2 =>
    have e1 := pg_varchar h1 hx.1
    have e2 := pg_plain h2 (by simp)
    rw [e1, e2]
    exact if_pos (.inr ⟨rfl, rfl⟩)
  | textVarchar h1 h2 =>
    have e1 := pg_plain h1 (by simp)
    have e2 := pg_varchar h2 (by simp)
    rw [e1, e2]
    rw [if_neg (by decide), if_pos (by decide), if_neg (by decide)]
  | network h1 h2 =>
    have e1 := pg_plain h1 (by simp)
    have e2 := pg_plain h2 (by simp)
    rw [e1, e2]
    exact if_pos (.inl ⟨rfl, rfl⟩)
  | precision n m sc hnm hm h1 h2 =>
    have e1 := pg_numeric h1 (by simpa using hm.1)
    have e2 := pg_numeric h2 (by simpa using hm.1)
    have := arg1_le (hm.2 m (by simp)) hnm
    have h2 : arg2 (n :: sc) = arg2 (m :: sc) := rfl
    rw [e1, e2]
    dsimp only
    rw [if_neg (by simp), if_neg (by simp), if_neg (by simp), if_pos (by simp), arg1_head (n := n),
      arg1_head (n := m), h2, if_neg (by simp), if_neg]
    · rfl
    · simp only [decide_eq_true_eq]
      grind
  | anyNumber xs hx h1 h2 =>
    have e1 := pg_numeric h1 hx.1
    have e2 := pg_numeric h2 (by simp)
    have a : atoi0 (arg1 []) = 0 := atoi0_nil
    have b : atoi0 (arg2 []) = 0 := atoi0_nil
    rw [e1, e2]
    dsimp only
    rw [if_neg (by simp), if_neg (by simp), if_neg (by simp), if_pos (by simp), if_neg (by simp [b]),
      if_neg]
    · rfl
    · simp only [decide_eq_true_eq, a]
      omega

/-- **C40**, Postgres: changes that are listed as safe add no warning about the type. -/
theorem pg_safe_unwarned {src dest : Catalog} (hsrc : Ok src) (hdest : Ok dest) (drop : Bool)
    (isFloat : Str → Bool) (pre : Str) (t : Table) (c : Column)
    (h : ∀ p ∈ commonTables src dest,
      warnTable .postgres src.currentSchema p.2 = warnTable .postgres src.currentSchema t →
      ∀ q ∈ CatalogSpec.commonColumns p.1 p.2, q.2.columnName = c.columnName →
        PgSafe q.1.columnType q.2.columnType) :
    ¬ TypeWarned .postgres src.currentSchema t c
      (Postgres.migration isFloat pre src dest drop).2 := by
  rintro ⟨w, hw, h1, h2, h3⟩
  rw [pg_warnings_exact hsrc hdest] at hw
  obtain ⟨p, hp, hw⟩ := List.mem_flatMap.1 hw
  rcases List.mem_append.1 hw with hw | hw
  · obtain ⟨x, -, hw⟩ := List.mem_flatMap.1 hw
    unfold Postgres.addWarning at hw
    grind
  · obtain ⟨q, hq, hw⟩ := List.mem_flatMap.1 hw
    obtain ⟨u, hu, rfl⟩ := List.mem_map.1 hw
    rw [pg_typeWarnings_safe (h p hp h1 q hq h2)] at hu
    unfold Postgres.notNullWarnings Postgres.warnIf at hu
    grind

/-! ## C40: MySQL -/

/-- **C40**, MySQL: a change of the type other than between two VARCHARs adds a warning. -/
theorem mysql_other_type_warned {src dest : Catalog} (hsrc : Ok src) (hdest : Ok dest) (drop : Bool)
    (pre : Str) {p : Table × Table} (hp : p ∈ commonTables src dest) {q : Column × Column}
    (hq : q ∈ CatalogSpec.commonColumns p.1 p.2) {n m : Str} (h1 : TypeText q.1.columnType n)
    (h2 : TypeText q.2.columnType m) (hn : n.head?.any fun c => !isSpace c)
    (hm : m.head?.any fun c => !isSpace c)
    (hs : ¬ (∃ a b, toUpper q.1.columnType = a ++ b!"SIGNED SIGNED" ++ b) ∧
      ¬ (∃ a b, toUpper q.2.columnType = a ++ b!"SIGNED SIGNED" ++ b))
    (hne : typeMeaning .mysql (trimSpace n) ≠ typeMeaning .mysql (trimSpace m)) :
    TypeWarned .mysql src.currentSchema p.2 q.2 (Mysql.migration pre src dest drop).2 := by
  have hnone : ∀ {s name : Str}, TypeText s name → normalizeColumnType .mysql s ≠ none := by
    intro s name h hnn
    rw [normalizeColumnType_panics] at hnn
    cases h with
    | plain _ h => exact h hnn.2
    | args name x _ => exact hnn.1 (by simp)
  obtain ⟨⟨a, a1, a2⟩, ha⟩ := Option.ne_none_iff_exists'.1 (hnone h1)
  obtain ⟨⟨b, b1, b2⟩, hb⟩ := Option.ne_none_iff_exists'.1 (hnone h2)
  have ma := normalizeColumnType_meaning_partial .mysql _ _ _ _ _ h1 hn ha (fun _ => hs.1)
  have mb := normalizeColumnType_meaning_partial .mysql _ _ _ _ _ h2 hm hb (fun _ => hs.2)
  rw [← ma, ← mb] at hne
  have ea : normType .mysql q.1.columnType = (a, a1, a2) := by simp [normType, ha]
  have eb : normType .mysql q.2.columnType = (b, b1, b2) := by simp [normType, hb]
  have hab : a ≠ b := fun h => hne (by rw [h])
  refine ⟨⟨warnTable .mysql src.currentSchema p.2, q.2.columnName, .type⟩, ?_, rfl, rfl, by simp⟩
  rw [mysql_warnings_exact hsrc hdest]
  refine List.mem_flatMap.2 ⟨p, hp, List.mem_flatMap.2 ⟨q, hq, ?_⟩⟩
  unfold Mysql.typeWarning
  dsimp only
  rw [ea, eb]
  dsimp only
  rw [if_neg (fun h => hab (congrArg Prod.fst h)), if_neg]
  · simp
  · rintro ⟨rfl, rfl⟩; exact hab rfl

/-- **C40**, MySQL, partial: giving a VARCHAR another limit adds a warning if the number of length
bytes changes.  Missing: smaller limits on the same side of 255 (see
`mysql_varchar_narrowing_refuted`). -/
theorem mysql_varchar_warned_partial {src dest : Catalog} (hsrc : Ok src) (hdest : Ok dest)
    (drop : Bool) (pre : Str) {p : Table × Table} (hp : p ∈ commonTables src dest)
    {q : Column × Column} (hq : q ∈ CatalogSpec.commonColumns p.1 p.2) {n m : Nat}
    (hn : n < 2 ^ 63) (hm : m < 2 ^ 63) (hn0 : 0 < n) (hm0 : 0 < m)
    (h1 : Written (varcharNames .mysql) [n] q.1.columnType)
    (h2 : Written (varcharNames .mysql) [m] q.2.columnType)
    (h : (n ≤ 255 ∧ 255 < m) ∨ (m ≤ 255 ∧ 255 < n)) :
    TypeWarned .mysql src.currentSchema p.2 q.2 (Mysql.migration pre src dest drop).2 := by
  have e1 := mysql_varchar h1 (by simp)
  have e2 := mysql_varchar h2 (by simp)
  have a1 : atoi0 (arg1 [n]) = n := atoi0_digits hn
  have a2 : atoi0 (arg1 [m]) = m := atoi0_digits hm
  refine ⟨⟨warnTable .mysql src.currentSchema p.2, q.2.columnName, .limit⟩, ?_, rfl, rfl, by simp⟩
  rw [mysql_warnings_exact hsrc hdest]
  refine List.mem_flatMap.2 ⟨p, hp, List.mem_flatMap.2 ⟨q, hq, ?_⟩⟩
  unfold Mysql.typeWarning
  dsimp only
  rw [e1, e2]
  dsimp only
  rw [if_neg, if_pos ⟨rfl, rfl⟩, a1, a2, if_pos (by omega)]
  · simp
  · intro h
    have h : arg1 [n] = arg1 [m] := congrArg (fun x : Str × Str × Str => x.2.1) h
    rw [← h, a1] at a2
    omega

theorem mysql_typeWarning_safe {s t : Column} (h : MysqlSafe s.columnType t.columnType) :
    Mysql.typeWarning s t = none := by
  unfold Mysql.typeWarning
  dsimp only
  split
  · rfl
  rename_i hne
  cases h with
  | same h =>
    refine absurd ?_ hne
    have := normalizeColumnType_case .mysql s.columnType t.columnType [] [] h (by simp) (by simp)
    rw [normType, normType]
    simp at this
    rw [this]
  | longer n m hnm hm hb h1 h2 =>
    have e1 := mysql_varchar h1 (by simp)
    have e2 := mysql_varchar h2 (by simp)
    have a1 : atoi0 (arg1 [n]) = n := atoi0_digits (by omega)
    have a2 : atoi0 (arg1 [m]) = m := atoi0_digits hm
    rw [e1, e2]
    dsimp only
    rw [if_pos ⟨rfl, rfl⟩, a1, a2, if_neg (by omega)]

/-- **C40**, MySQL: longer limits that keep the number of length bytes add no warning. -/
theorem mysql_safe_unwarned {src dest : Catalog} (hsrc : Ok src) (hdest : Ok dest) (drop : Bool)
    (pre : Str) (t : Table) (c : Column)
    (h : ∀ p ∈ commonTables src dest,
      warnTable .mysql src.currentSchema p.2 = warnTable .mysql src.currentSchema t →
      ∀ q ∈ CatalogSpec.commonColumns p.1 p.2, q.2.columnName = c.columnName →
        MysqlSafe q.1.columnType q.2.columnType) :
    ¬ TypeWarned .mysql src.currentSchema t c (Mysql.migration pre src dest drop).2 := by
  rintro ⟨w, hw, h1, h2, h3⟩
  rw [mysql_warnings_exact hsrc hdest] at hw
  obtain ⟨p, hp, hw⟩ := List.mem_flatMap.1 hw
  obtain ⟨q, hq, hw⟩ := List.mem_flatMap.1 hw
  simp only [Option.mem_toList, Option.map_eq_some_iff] at hw
  obtain ⟨u, hu, rfl⟩ := hw
  rw [mysql_typeWarning_safe (h p hp h1 q hq h2)] at hu
  cases hu

/-! ## C33: no file and no warning -/

/-- **C33**: the migration of a catalog to itself has no file and no warning (MySQL). -/
theorem mysql_self {c : Catalog} (hc : Ok c) (drop : Bool) (pre : Str) :
    Mysql.migration pre c c drop = ([], []) := by
  unfold Mysql.migration
  rw [diffEvents_mysql, diff_self (by simp [Server]) hc]
  rfl

/-- **C33**: the migration of a catalog to itself has no file and no warning (Postgres). -/
theorem pg_self {c : Catalog} (hc : Ok c) (drop : Bool) (isFloat : Str → Bool) (pre : Str) :
    Postgres.migration isFloat pre c c drop = ([], []) := by
  unfold Postgres.migration
  rw [diffEvents_postgres, diff_self (by simp [Server]) hc]
  rfl

/-! ## Samples and counterexamples -/

namespace WarningSample

/-- a catalog of one table with one column of this type -/
def one (ty : Str) : Catalog :=
  { currentSchema := b!"app"
    schemas := [{ schemaName := b!"app"
                  tables := [{ tableSchema := b!"app", tableName := b!"pet"
                               columns := [{ tableSchema := b!"app", tableName := b!"pet"
                                             columnName := b!"name", columnType := ty }] }] }] }

/-- the table of `one` -/
def tbl (ty : Str) : Table := (liveTables (one ty)).headD {}
/-- the column of `one` -/
def column (ty : Str) : Column := (liveColumns (tbl ty)).headD {}

/-- no strings are numbers for `strconv.ParseFloat`: not needed here -/
def noFloat : Str → Bool := fun _ => false

theorem one_ok (ty : Str) : Ok (one ty) :=
  ⟨by simp [one], fun s hs => by
    simp only [one, List.mem_singleton] at hs
    subst hs
    refine ⟨by simp, by simp, by simp, fun t ht => ?_⟩
    simp only [List.mem_singleton] at ht
    subst ht
    exact ⟨by simp, by simp, by simp, by simp⟩⟩

theorem one_tables (s t : Str) : (tbl s, tbl t) ∈ commonTables (one s) (one t) := by
  show _ ∈ [(tbl s, tbl t)]
  simp

theorem one_columns (s t : Str) :
    (column s, column t) ∈ CatalogSpec.commonColumns (tbl s) (tbl t) := by
  show _ ∈ [(column s, column t)]
  simp

example : TypeWarned .postgres b!"app" (tbl b!"varchar(10)") (column b!"varchar(10)")
    (Postgres.migration noFloat b!"1" (one b!"VARCHAR(20)") (one b!"varchar(10)") false).2 :=
  pg_varchar_narrowing_warned (one_ok _) (one_ok _) false noFloat b!"1" (one_tables _ _)
    (one_columns _ _) (n := 20) (m := 10) (by decide) (by decide)
    ⟨b!"varchar", by decide, by decide +kernel⟩ ⟨b!"varchar", by decide, by decide +kernel⟩
    ⟨15, by simp [VarcharFits], by simp [VarcharFits]⟩

example : TypeWarned .postgres b!"app" (tbl b!"decimal(10,4)") (column b!"decimal(10,4)")
    (Postgres.migration noFloat b!"1" (one b!"numeric(10,2)") (one b!"decimal(10,4)") true).2 :=
  pg_numeric_narrowing_warned_partial (one_ok _) (one_ok _) true noFloat b!"1" (one_tables _ _)
    (one_columns _ _) (xs := [10, 2]) (ys := [10, 4]) (by simp [Small]) (by simp [Small]) (by simp)
    (by simp) ⟨b!"numeric", by decide, by decide +kernel⟩ ⟨b!"decimal", by decide, by decide +kernel⟩
    ⟨(8, 2), by simp [NumericFits], by simp [NumericFits]⟩ (by simp [scale])

example : TypeWarned .postgres b!"app" (tbl b!"date") (column b!"date")
    (Postgres.migration noFloat b!"1" (one b!"varchar(10)") (one b!"date") true).2 :=
  pg_other_type_warned (one_ok _) (one_ok _) true noFloat b!"1" (one_tables _ _)
    (one_columns _ _) (n := b!"varchar") (m := b!"date") (.args b!"varchar" b!"10" (by decide))
    (.plain _ (by decide)) (by decide) (by decide) (by decide +kernel) (by decide +kernel)

example : ¬ TypeWarned .postgres b!"app" (tbl b!"text") (column b!"text")
    (Postgres.migration noFloat b!"1" (one b!"character varying(10)") (one b!"text") true).2 :=
  pg_safe_unwarned (one_ok _) (one_ok _) true noFloat b!"1" _ _ (by
    intro p hp _ q hq _
    have hp : p = (tbl b!"character varying(10)", tbl b!"text") := by
      simpa using (show p ∈ [(tbl b!"character varying(10)", tbl b!"text")] from hp)
    subst hp
    have hq : q = (column b!"character varying(10)", column b!"text") := by
      simpa using (show q ∈ [(column b!"character varying(10)", column b!"text")] from hq)
    subst hq
    exact .varcharText _ _ [10] (by simp [Small]) ⟨b!"character varying", by decide, by decide +kernel⟩
      ⟨b!"text", by decide, by decide +kernel⟩)

example : TypeWarned .mysql b!"app" (tbl b!"text") (column b!"text")
    (Mysql.migration b!"1" (one b!"varchar(10)") (one b!"text") true).2 :=
  mysql_other_type_warned (one_ok _) (one_ok _) true b!"1" (one_tables _ _)
    (one_columns _ _) (n := b!"varchar") (m := b!"text") (.args b!"varchar" b!"10" (by decide))
    (.plain _ (by decide)) (by decide) (by decide)
    (by
      constructor <;> rintro ⟨a, b, h⟩ <;>
      · have := congrArg List.length h
        simp [toUpper, column, tbl, one, liveTables, liveSchemas, liveColumns] at this
        omega) (by decide +kernel)

example : TypeWarned .mysql b!"app" (tbl b!"varchar(200)") (column b!"varchar(200)")
    (Mysql.migration b!"1" (one b!"varchar(256)") (one b!"varchar(200)") true).2 :=
  mysql_varchar_warned_partial (one_ok _) (one_ok _) true b!"1" (one_tables _ _) (one_columns _ _)
    (n := 256) (m := 200) (by decide) (by decide) (by decide) (by decide)
    ⟨b!"varchar", by decide, by decide +kernel⟩ ⟨b!"varchar", by decide, by decide +kernel⟩ (by decide)

example : ¬ TypeWarned .mysql b!"app" (tbl b!"varchar(200)") (column b!"varchar(200)")
    (Mysql.migration b!"1" (one b!"varchar(100)") (one b!"varchar(200)") true).2 :=
  mysql_safe_unwarned (one_ok _) (one_ok _) true b!"1" _ _ (by
    intro p hp _ q hq _
    have hp : p = (tbl b!"varchar(100)", tbl b!"varchar(200)") := by
      simpa using (show p ∈ [(tbl b!"varchar(100)", tbl b!"varchar(200)")] from hp)
    subst hp
    have hq : q = (column b!"varchar(100)", column b!"varchar(200)") := by
      simpa using (show q ∈ [(column b!"varchar(100)", column b!"varchar(200)")] from hq)
    subst hq
    exact .longer _ _ 100 200 (by decide) (by decide) (by decide)
      ⟨b!"varchar", by decide, by decide +kernel⟩ ⟨b!"varchar", by decide, by decide +kernel⟩)

example : Ok (one b!"varchar(10)") := one_ok _

/-- A change of the type of the column of `one` that loses values and adds no warning. -/
def Silent (fits : List Nat → α → Prop) (names : List Str) (xs ys : List Nat) (s t : Str)
    (ws : List Warning) : Prop :=
  Written names xs s ∧ Written names ys t ∧ Narrows fits xs ys ∧ ws = []

end WarningSample
open WarningSample

/-- **C40** is refuted for Postgres: giving a VARCHAR without a limit a limit adds no warning. -/
theorem pg_varchar_unlimited_refuted :
    Silent VarcharFits (varcharNames .postgres) [] [10] b!"varchar" b!"varchar(10)"
      (Postgres.migration noFloat b!"1" (one b!"varchar") (one b!"varchar(10)") false).2 :=
  ⟨⟨b!"varchar", by decide, by decide +kernel⟩, ⟨b!"varchar", by decide, by decide +kernel⟩,
    ⟨11, by simp [VarcharFits], by simp [VarcharFits]⟩, by decide +kernel⟩

/-- **C40** is refuted for Postgres: removing the digits after the point from a NUMERIC adds no
warning. -/
theorem pg_numeric_scale_refuted :
    Silent NumericFits numericNames [10, 2] [10] b!"numeric(10,2)" b!"numeric(10)"
      (Postgres.migration noFloat b!"1" (one b!"numeric(10,2)") (one b!"numeric(10)") false).2 ∧
    Silent NumericFits numericNames [10, 2] [10, 0] b!"numeric(10,2)" b!"numeric(10,0)"
      (Postgres.migration noFloat b!"1" (one b!"numeric(10,2)") (one b!"numeric(10,0)") false).2 ∧
    Silent NumericFits numericNames [] [10] b!"numeric" b!"numeric(10)"
      (Postgres.migration noFloat b!"1" (one b!"numeric") (one b!"numeric(10)") false).2 :=
  ⟨⟨⟨b!"numeric", by decide, by decide +kernel⟩, ⟨b!"numeric", by decide, by decide +kernel⟩,
    ⟨(1, 2), by simp [NumericFits], by simp [NumericFits]⟩, by decide +kernel⟩,
   ⟨⟨b!"numeric", by decide, by decide +kernel⟩, ⟨b!"numeric", by decide, by decide +kernel⟩,
    ⟨(1, 2), by simp [NumericFits], by simp [NumericFits]⟩, by decide +kernel⟩,
   ⟨⟨b!"numeric", by decide, by decide +kernel⟩, ⟨b!"numeric", by decide, by decide +kernel⟩,
    ⟨(1, 2), by simp [NumericFits], by simp [NumericFits]⟩, by decide +kernel⟩⟩

/-- **C40** is refuted for MySQL: a smaller limit on the same side of 255 adds no warning. -/
theorem mysql_varchar_narrowing_refuted :
    Silent VarcharFits (varcharNames .mysql) [200] [100] b!"varchar(200)" b!"varchar(100)"
      (Mysql.migration b!"1" (one b!"varchar(200)") (one b!"varchar(100)") false).2 :=
  ⟨⟨b!"varchar", by decide, by decide +kernel⟩, ⟨b!"varchar", by decide, by decide +kernel⟩,
    ⟨150, by simp [VarcharFits], by simp [VarcharFits]⟩, by decide +kernel⟩

end Sqddl
