import Verif.Spec.Lex
import Verif.Spec.Wipe
import Verif.Model.Catalog

/-!
# The definitions that SQLite keeps

Independent of the model (only the types of a catalog are used).  A SQLite database keeps the text of
every CREATE TABLE, CREATE VIRTUAL TABLE and CREATE INDEX in its table sqlite_schema; that text is all
there is to a table or an index.
-/

namespace LiteDump
open SqlSpec Sqddl
open WipeSpec (kws)

/-- What is defined. -/
inductive Kind
  | table
  | virtual
  | index
deriving DecidableEq, Repr

/-- A definition: its kind, its name, the table that it is about and its tokens. -/
structure Entry where
  kind : Kind
  name : Str
  table : Str
  text : List Tok
deriving DecidableEq, Repr

/-- A database: its definitions in the order in which they were made. -/
abbrev Db := List Entry

/-- `name ON table …` -/
def readIndex (kw : List Str) (ts : List Tok) : List Tok → Option Entry
  | n :: on :: t :: _ =>
    (nameOf .sqlite kw n).bind fun n => (nameOf .sqlite kw t).bind fun t =>
      if isKw b!"ON" on then some ⟨.index, n, t, ts⟩ else none
  | _ => none

/-- `name …` -/
def readTable (kw : List Str) (k : Kind) (ts : List Tok) : List Tok → Option Entry
  | n :: _ => (nameOf .sqlite kw n).map fun n => ⟨k, n, n, ts⟩
  | _ => none

/-- The definition that a statement is. -/
def readEntry (kw : List Str) (ts : List Tok) : Option Entry :=
  match kws [b!"CREATE", b!"TABLE"] ts with
  | some r => readTable kw .table ts r
  | none =>
  match kws [b!"CREATE", b!"VIRTUAL", b!"TABLE"] ts with
  | some r => readTable kw .virtual ts r
  | none =>
  match kws [b!"CREATE", b!"INDEX"] ts with
  | some r => readIndex kw ts r
  | none =>
  match kws [b!"CREATE", b!"UNIQUE", b!"INDEX"] ts with
  | some r => readIndex kw ts r
  | none => none

/-- The definitions that a script makes; `none` if it has any other statement. -/
def runScript (kw : List Str) (s : Str) : Option (List Entry) :=
  (lex .sqlite s).bind fun ts => (statements ts).mapM (readEntry kw)

/-- Names are compared without regard to case. -/
def SameName (a b : Str) : Prop := Go.toLower a = Go.toLower b

/-- Tables and indexes share their names, and only a table that is there and not virtual can get an
index. -/
def Accepts (db : Db) (e : Entry) : Prop :=
  (∀ x ∈ db, ¬ SameName x.name e.name) ∧
  (e.kind = .index → ∃ x ∈ db, x.kind = .table ∧ SameName x.name e.table)

/-- The database accepts the statements one after the other and is `db'` in the end. -/
def Runs : Db → List Entry → Db → Prop
  | db, [], db' => db = db'
  | db, e :: es, db' => Accepts db e ∧ Runs (db ++ [e]) es db'

/-- What every SQLite database is like. -/
structure Sound (db : Db) : Prop where
  names : db.Pairwise fun x y => ¬ SameName x.name y.name
  tables : ∀ e ∈ db, e.kind = .index → ∃ x ∈ db, x.kind = .table ∧ SameName x.name e.table

/-- The only definition in a text. -/
def definition (kw : List Str) (s : Str) : Option Entry :=
  (lex .sqlite s).bind fun ts =>
    if ts.getLast? = some (.punct ';') ∧ Tok.punct ';' ∉ ts.dropLast then readEntry kw ts.dropLast
    else none

/-- The tables of a catalog. -/
def tablesOf (c : Catalog) : List Table := c.schemas.flatMap (·.tables)

/-- The indexes of a catalog. -/
def indexesOf (c : Catalog) : List Index := (tablesOf c).flatMap (·.indexes)

/-- The catalog describes the tables `ts` and the indexes `xs`: it has their definitions. -/
structure Describes (kw : List Str) (c : Catalog) (ts xs : List Entry) : Prop where
  tables : (tablesOf c).mapM (fun t => definition kw t.sql) = some ts
  indexes : (indexesOf c).mapM (fun x => definition kw x.sql) = some xs
  kinds : ∀ e ∈ ts, e.kind ≠ .index
  index : ∀ e ∈ xs, e.kind = .index

/-- A catalog of SQLite: no names of schemas, no extensions, enums and domains. -/
structure Lite (c : Catalog) : Prop where
  extensions : c.extensions = []
  schemas : ∀ s ∈ c.schemas, s.schemaName = [] ∧ s.enums = [] ∧ s.domains = []

end LiteDump
