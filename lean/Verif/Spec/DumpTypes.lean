import Verif.Spec.Dump
import Verif.Spec.PgEngine

/-!
# Extensions, enums and domains of Postgres

Independent of the model: reading CREATE EXTENSION, CREATE TYPE … AS ENUM and CREATE DOMAIN, a server
that keeps types besides the tables of Verif.Spec.PgEngine, and what types a catalog describes.
-/

namespace PgTypes
open SqlSpec Sqddl DdlText EngineSpec
open WipeSpec (kws readName)

/-- A domain. -/
structure Dom where
  type : List Tok
  notNull : Bool
  collation : Option Tok
  default : Option (List Tok)
  /-- names and expressions -/
  checks : List (Option Str × List Tok)
deriving DecidableEq, Repr

/-- Statements. -/
inductive Stmt
  /-- CREATE EXTENSION IF NOT EXISTS -/
  | extension (name : Str)
  | enum (name : Name) (labels : List Str)
  | domain (name : Name) (x : Dom)
  | other (st : PgText.Stmt)
deriving DecidableEq, Repr

/-! ## Reading -/

/-- A label. -/
def readLabel : List Tok → Option Str
  | [.str s] => some s
  | _ => none

/-- What follows CREATE TYPE. -/
def readEnum (kw : List Str) (ts : List Tok) : Option Stmt :=
  (readName .postgres kw ts).bind fun (s, n, r) =>
  (kws [b!"AS", b!"ENUM"] r).bind fun r =>
  (inBrackets r).bind fun (inner, r) =>
  if r ≠ [] then none
  else if inner = [] then some (.enum (s, n) [])
  else ((splitTop 0 inner).mapM readLabel).map (.enum (s, n))

/-- `[CONSTRAINT name] CHECK (expression)`, repeated; `n` bounds how often. -/
def readChecks (kw : List Str) : Nat → List Tok → Option (List (Option Str × List Tok))
  | _, [] => some []
  | 0, _ => none
  | n + 1, ts =>
    (readConName .postgres kw ts).bind fun (name, r) =>
    (kws [b!"CHECK"] r).bind fun r =>
    (inBrackets r).bind fun (e, r) =>
    if e = [] then none else (readChecks kw n r).map ((name, e) :: ·)

/-- The words that end the type or the default of a domain. -/
def domStops : List Str := [b!"NOT", b!"COLLATE", b!"DEFAULT", b!"CONSTRAINT", b!"CHECK"]

/-- `[DEFAULT expression]` -/
def readDefault (ts : List Tok) : Option (List Tok) × List Tok :=
  match kws [b!"DEFAULT"] ts with
  | some r => (some (untilWord domStops 0 r).1, (untilWord domStops 0 r).2)
  | none => (none, ts)

/-- What follows the type of a domain. -/
def readDomRest (kw : List Str) (type ts : List Tok) : Option Dom :=
  let (notNull, r) := optKw [b!"NOT", b!"NULL"] ts
  let (collation, r) := readCollation r
  let (default, r) := readDefault r
  if type = [] ∨ default = some [] then none
  else (readChecks kw r.length r).map fun checks => ⟨type.map foldTok, notNull, collation, default, checks⟩

/-- What follows CREATE DOMAIN. -/
def readDomain (kw : List Str) (ts : List Tok) : Option Stmt :=
  (readName .postgres kw ts).bind fun (s, n, r) =>
  (kws [b!"AS"] r).bind fun r =>
  (readDomRest kw (untilWord domStops 0 r).1 (untilWord domStops 0 r).2).map (.domain (s, n))

/-- Reads a statement; `kw` are the reserved words. -/
def readStmt (kw : List Str) (ts : List Tok) : Option Stmt :=
  match PgText.readStmt kw ts with
  | some st => some (.other st)
  | none =>
  match kws [b!"CREATE", b!"EXTENSION", b!"IF", b!"NOT", b!"EXISTS"] ts with
  | some r => (readOne .postgres kw r).map .extension
  | none =>
  match kws [b!"CREATE", b!"TYPE"] ts with
  | some r => readEnum kw r
  | none => (kws [b!"CREATE", b!"DOMAIN"] ts).bind (readDomain kw)

/-- The statement with full names; `cur` is the current schema. -/
def Stmt.resolve (cur : Str) : Stmt → Stmt
  | .extension n => .extension n
  | .enum n ls => .enum (full cur n) ls
  | .domain n x => .domain (full cur n) x
  | .other st => .other (st.resolve cur)

/-- The statements of a script, with full names. -/
def runScript (kw : List Str) (cur s : Str) : Option (List Stmt) :=
  (lex .postgres s).bind fun ts =>
    (statements ts).mapM fun ts => (readStmt kw ts).map (Stmt.resolve cur)

/-! ## The server -/

/-- The schemas and tables, the extensions, the enums with their labels, and the domains. -/
@[ext] structure State where
  db : Db
  exts : Str → Bool
  enum : Key → Option (List Str)
  dom : Key → Option Dom

/-- The type exists. -/
def State.known (st : State) (k : Key) : Prop := (st.enum k).isSome ∨ (st.dom k).isSome

/-- Nothing has this name that a type could not share it with: no type and no table (a table is a type
too). -/
def State.free (st : State) (k : Key) : Prop :=
  st.enum k = none ∧ st.dom k = none ∧ st.db.table k = none

/-- The texts of a domain in which types can be named. -/
def Dom.texts (x : Dom) : List (List Tok) := x.type :: x.default.toList ++ x.checks.map (·.2)

/-- The texts of a column in which types can be named. -/
def colTexts (c : Col) : List (List Tok) :=
  c.type :: c.default.toList ++ (c.generated.map (·.1)).toList

/-- The texts of a statement in which types can be named, if it creates columns. -/
def stmtTexts : PgText.Stmt → List (List Tok)
  | .base (.createTable _ items) => items.flatMap fun
    | .col c => colTexts c
    | _ => []
  | .alter _ as => as.flatMap fun
    | .addColumn c => colTexts c
    | .setType _ ts _ => [ts]
    | _ => []
  | _ => []

/-- The name of a table that is created is not that of a type. -/
def tableNameFree (st : State) : PgText.Stmt → Prop
  | .base (.createTable n _) => st.enum (key n) = none ∧ st.dom (key n) = none
  | _ => True

/-- The server runs the statement.  `uses`: the enums and domains that a text names.  The names in
expressions of indexes and constraints are not looked at, nor whether an extension is available. -/
def Accepts (uses : List Tok → List Key) (st : State) : Stmt → Prop
  | .extension _ => True
  | .enum n ls => st.db.schema (key n).1 = true ∧ st.free (key n) ∧ ls.Nodup
  | .domain n x => st.db.schema (key n).1 = true ∧ st.free (key n) ∧
    (∀ ts ∈ x.texts, ∀ k ∈ uses ts, st.known k) ∧ (x.checks.filterMap (·.1)).Nodup
  | .other s => PgSpec.Accepts st.db s ∧ tableNameFree st s ∧ ∀ ts ∈ stmtTexts s, ∀ k ∈ uses ts, st.known k

/-- What a statement does. -/
def effect (st : State) : Stmt → State
  | .extension n => { st with exts := put st.exts n true }
  | .enum n ls => { st with enum := put st.enum (key n) (some ls) }
  | .domain n x => { st with dom := put st.dom (key n) (some x) }
  | .other s => { st with db := PgSpec.effect st.db s }

/-- The server runs the statements one after the other, and this is the result. -/
def Runs (uses : List Tok → List Key) : State → List Stmt → State → Prop
  | st, [], st' => st = st'
  | st, s :: r, st' => Accepts uses st s ∧ Runs uses (effect st s) r st'

/-! ## The types that a catalog describes -/

/-- The domain that a catalog domain describes; `coll` is the collation that is not written. -/
def domOf (coll : Str) (x : Domain) : Dom where
  type := (toks .postgres x.underlyingType).map foldTok
  notNull := x.isNotNull
  collation :=
    if x.collationName = [] ∨ x.collationName = coll then none else some (.quoted x.collationName)
  default := if x.columnDefault = [] then none else some (toks .postgres x.columnDefault)
  checks := x.checkExprs.mapIdx fun i e =>
    (x.checkNames[i]?.filter (· ≠ []), exprToks .postgres e)

/-- The enums of a schema. -/
def enumsIn (s : Schema) : List (Key × List Str) :=
  s.enums.map fun e => ((s.schemaName, e.enumName), e.enumLabels)

/-- The domains of a schema. -/
def domsIn (coll : Str) (s : Schema) : List (Key × Dom) :=
  s.domains.map fun x => ((s.schemaName, x.domainName), domOf coll x)

/-- The value of a key. -/
def look {α : Type} (xs : List (Key × α)) (k : Key) : Option α := (xs.find? fun p => p.1 == k).map (·.2)

/-- The database that a catalog describes. -/
def stateOf (kw : List Str) (c : Catalog) : State where
  db := DumpSpec.dbOf .postgres kw c
  exts := fun n => c.extensions.contains n
  enum := look (c.schemas.flatMap enumsIn)
  dom := look (c.schemas.flatMap (domsIn c.defaultCollation))

/-- A database with these schemas and extensions, in which nothing is. -/
def empty (E X : Str → Bool) : State := ⟨DumpSpec.empty E, X, fun _ => none, fun _ => none⟩

/-- The database with further schemas, in which nothing is, and further extensions. -/
def withMore (E X : Str → Bool) (st : State) : State :=
  { st with db := DumpSpec.withSchemas E st.db, exts := fun n => X n || st.exts n }

/-! ## What can be dumped -/

/-- An enum that can be written. -/
structure EnumOk (e : Enum) : Prop where
  name : PlainName .postgres e.enumName
  labels : ∀ l ∈ e.enumLabels, ¬ HasInnerPair '\'' l
  nodup : e.enumLabels.Nodup

/-- A part of CREATE DOMAIN that is written as it is. -/
def Part (s : Str) : Prop :=
  Fragment .postgres s ∧ flat 0 (toks .postgres s) ∧ quiet domStops 0 (toks .postgres s) ∧
    toks .postgres s ≠ []

/-- A domain that can be written. -/
structure DomainOk (x : Domain) : Prop where
  name : PlainName .postgres x.domainName
  type : Part x.underlyingType
  collation : ¬ HasInnerPair '"' x.collationName
  default : x.columnDefault ≠ [] → Part x.columnDefault
  checks : ∀ e ∈ x.checkExprs, ExprText .postgres e ∧ e ≠ [] ∧ exprToks .postgres e ≠ []
  checkNames : ∀ n ∈ x.checkNames, PlainName .postgres n
  nodup : (x.checkNames.filter (· ≠ [])).Nodup

/-- The types of a catalog.  `uses`: the enums and domains that a text names.

Every type that is named is one of the catalog, and the types that a domain names come before it: enums
of the same or an earlier schema, domains of an earlier schema, or earlier domains of the same one. -/
structure TypesOk (uses : List Tok → List Key) (c : Catalog) : Prop where
  extensions : ∀ e ∈ c.extensions, PlainName .postgres e
  enums : ∀ s ∈ c.schemas, ∀ e ∈ s.enums, EnumOk e
  domains : ∀ s ∈ c.schemas, ∀ x ∈ s.domains, DomainOk x
  /-- a name is not used twice -/
  names : ((c.schemas.flatMap fun s => (enumsIn s).map (·.1) ++
    (domsIn c.defaultCollation s).map (·.1)) ++
    (DumpSpec.tables c).map fun t => (t.tableSchema, t.tableName)).Nodup
  order : ∀ a s b, c.schemas = a ++ s :: b → ∀ p x q, s.domains = p ++ x :: q →
    ∀ ts ∈ (domOf c.defaultCollation x).texts, ∀ k ∈ uses ts,
      k ∈ ((a ++ [s]).flatMap fun s => (enumsIn s).map (·.1)) ∨
      k ∈ (a.flatMap fun s => (domsIn c.defaultCollation s).map (·.1)) ∨
      ∃ y ∈ p, k = (s.schemaName, y.domainName)
  columns : ∀ t ∈ DumpSpec.tables c, ∀ x ∈ t.columns,
    ∀ ts ∈ colTexts (colOf .postgres c.defaultCollation false x), ∀ k ∈ uses ts,
      ∃ s ∈ c.schemas, k ∈ (enumsIn s).map (·.1) ∨ k ∈ (domsIn c.defaultCollation s).map (·.1)

end PgTypes
