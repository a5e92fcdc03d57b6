import Verif.Spec.PgEngine
import Verif.Spec.TypeParts

/-!
# What changes of columns are meant to achieve on Postgres

Only the record types of the catalog are taken from the model.
-/

namespace PgSpec
open SqlSpec Sqddl DdlText DdlSpec EngineSpec

/-! ## Defaults -/

/-- A type, or several ones separated by `::`. -/
def castType (ty : Str) : Bool :=
  ty.all (fun c => wordChar c || [':', '.', ',', '(', ')', '[', ']'].contains c) ||
  (aliases .postgres).any fun p => p.1 == ty || p.2 == ty

/-- A text up to the first `::`, and what follows it. -/
def splitCast : Str → Str × Option Str
  | [] => ([], none)
  | c :: r =>
    if c = ':' ∧ r.head? = some ':' then ([], some r.tail)
    else (c :: (splitCast r).1, (splitCast r).2)

/-- `x` is the default without a cast, if it has one. -/
def Uncast (s x : Str) : Prop :=
  (splitCast (Go.trimSpace s)).1 = x ∧
  ∀ ty, (splitCast (Go.trimSpace s)).2 = some ty → castType ty = true

/-- The defaults are spellings of the same expression; casts are not looked at. -/
def DefaultEq (s t : Str) : Prop :=
  ∃ x y, Uncast s x ∧ Uncast t y ∧ SameDefault .postgres x y

/-- The default of a column of the database is a spelling of `s`, or missing if `s` is. -/
def DefaultIs (s : Str) : Option (List Tok) → Prop
  | none => s = []
  | some ts => ∃ x, ts = toks .postgres x ∧ DefaultEq x s

/-- A default that is missing, or an expression that may be cast to a type. -/
def CastOk (s : Str) : Prop := s = [] ∨ ∃ x, Uncast s x ∧ x ≠ [] ∧ Go.trimSpace x = x

/-- A constant: a string literal, a whole number or the name of a constant. -/
def Constant (x : Str) : Prop :=
  (2 ≤ x.length ∧ x.head? = some '\'' ∧ x.getLast? = some '\'') ∨
  (x ≠ [] ∧ x.length ≤ 18 ∧ ∀ c ∈ x, '0' ≤ c ∧ c ≤ '9') ∨
  Go.toUpper x ∈ [b!"TRUE", b!"FALSE", b!"NULL", b!"CURRENT_DATE", b!"CURRENT_TIME",
    b!"CURRENT_TIMESTAMP"]

/-! ## Columns -/

/-- The types mean the same, their arguments included. -/
def SameType (s t : Str) : Prop := SameMeaning .postgres s t

/-- The column `c` of the database is what `b` says; its type may still be that of `a`, if it has the
same meaning. -/
structure ColumnReached (coll : Str) (a b : Column) (c : Col) : Prop where
  name : c.name = b.columnName
  type : c.type = (colOf .postgres coll false b).type ∨
    c.type = (colOf .postgres coll false a).type ∧ SameType a.columnType b.columnType
  notNull : c.notNull = b.isNotNull
  identity : c.identity.isSome = true ↔ b.columnIdentity ≠ []
  default : DefaultIs b.columnDefault c.default
  collation : c.collation.getD (.quoted coll) =
    .quoted (if b.collationName = [] then coll else b.collationName)
  generated : c.generated = (colOf .postgres coll false b).generated

/-- The differences between two versions of a column that a migration takes care of.  `early`: the
version is lower than 12, where NOT NULL is set at once.

* Domains and the expressions of generated columns stay as they are.
* A default is replaced only if the old one and the new one are constants.
* A column that becomes an identity column is NOT NULL already, unless `early`.
* A column that is no identity column any more stays NOT NULL and gets no default.
* A collation that is not the default one is not removed. -/
structure Alterable (coll : Str) (early : Bool) (a b : Column) : Prop where
  name : a.columnName = b.columnName
  domain : (a.domainName = [] ∧ b.domainName = []) ∨
    (a.domainName = b.domainName ∧ a.columnType = b.columnType ∧ a.collationName = b.collationName)
  generated : a.generatedExpr = b.generatedExpr ∧ a.generatedExprStored = b.generatedExprStored
  computed : a.generatedExpr ≠ [] → a.columnDefault = [] ∧ b.columnDefault = [] ∧
    a.columnIdentity = [] ∧ b.columnIdentity = []
  casts : CastOk a.columnDefault ∧ CastOk b.columnDefault
  default : a.columnDefault = [] ∨ b.columnDefault = [] ∨ a.columnDefault = b.columnDefault ∨
    ∃ x y, Uncast a.columnDefault x ∧ Uncast b.columnDefault y ∧ Constant x ∧ Constant y
  oldIdentity : a.columnIdentity ≠ [] → a.isNotNull = true ∧ a.columnDefault = []
  newIdentity : b.columnIdentity ≠ [] → b.isNotNull = true ∧ b.columnDefault = []
  gained : a.columnIdentity = [] → b.columnIdentity ≠ [] → a.isNotNull = true ∨ early = true
  lost : a.columnIdentity ≠ [] → b.columnIdentity = [] → b.isNotNull = true ∧ b.columnDefault = []
  collation : b.collationName = [] → a.collationName = [] ∨ a.collationName = coll

/-- The changes of the columns of the table called `n`, which is `t` in the database.

* A generated column is in the way of a change of the type of a column that it mentions.
* A column of the primary key stays NOT NULL.
* The names of the constraints by which columns are made NOT NULL are free. -/
structure Alterations (coll : Str) (early : Bool) (n : Str) (t : Tbl) (ps : List (Column × Column)) :
    Prop where
  cols : ∀ p ∈ ps, t.col p.2.columnName = some (colOf .postgres coll false p.1)
  each : ∀ p ∈ ps, Alterable coll early p.1 p.2
  once : (ps.map fun p => p.2.columnName).Nodup
  table : ∀ p ∈ ps, p.2.tableName = n
  generated : ∀ p ∈ ps, p.1.columnType ≠ p.2.columnType ∨ p.1.collationName ≠ p.2.collationName →
    ∀ m d, t.col m = some d → generatedFrom p.2.columnName d = false
  primary : ∀ p ∈ ps, p.1.isNotNull = true → p.2.isNotNull = false →
    ∀ m d cs, t.con m = some d → d.kind = .primary cs → p.2.columnName ∉ cs
  free : ∀ p ∈ ps, p.1.isNotNull = false → p.2.isNotNull = true →
    t.con (n ++ b!"_" ++ p.2.columnName ++ b!"_not_null_check") = none

end PgSpec
