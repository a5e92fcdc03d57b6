import Verif.Spec.DdlStmt

/-!
# Reading SQLite statements

Independent of the model, like Verif.Spec.DdlText: the statements of a SQLite migration, as in the
manual of SQLite.  A name has an optional schema.
-/

namespace LiteText
open SqlSpec Sqddl DdlText
open WipeSpec (kws readName)

/-- Statements. -/
inductive Stmt
  | pragma (name value : Str)
  | createTable (n : Name) (items : List Item)
  | createIndex (x : Idx)
  | dropTable (n : Name)
  | dropIndex (n : Name)
  | addColumn (n : Name) (c : Col)
  | dropColumn (n : Name) (c : Str)
  | renameTable (n : Name) (new : Str)
  /-- INSERT INTO n (cols) SELECT vals FROM source -/
  | copyRows (n : Name) (cols vals : List Str) (source : Name)
deriving DecidableEq, Repr

/-- `PRAGMA name = value` -/
def readPragma : List Tok → Option Stmt
  | [.word n, .punct '=', .word v] => some (.pragma (Go.toLower n) (Go.toLower v))
  | _ => none

/-- `ALTER TABLE n …`; SQLite takes one change per statement. -/
def readAlter (kw : List Str) (ts : List Tok) : Option Stmt :=
  (readName .sqlite kw ts).bind fun (s, t, r) =>
  match kws [b!"ADD", b!"COLUMN"] r with
  | some r => (readCol .sqlite kw r).map (.addColumn (s, t))
  | none =>
  match kws [b!"DROP", b!"COLUMN"] r with
  | some r => (readOne .sqlite kw r).map (.dropColumn (s, t))
  | none => (kws [b!"RENAME", b!"TO"] r).bind fun r => (readOne .sqlite kw r).map (.renameTable (s, t))

/-- `n (cols) SELECT vals FROM source` -/
def readInsert (kw : List Str) (ts : List Tok) : Option Stmt :=
  (readName .sqlite kw ts).bind fun (s, t, r) =>
  (readCols .sqlite kw r).bind fun (cols, r) =>
  (kws [b!"SELECT"] r).bind fun r =>
  ((splitTop 0 (untilWord [b!"FROM"] 0 r).1).mapM (readOne .sqlite kw)).bind fun vals =>
  (kws [b!"FROM"] (untilWord [b!"FROM"] 0 r).2).bind fun r =>
  (readName .sqlite kw r).bind fun (s2, t2, r) =>
  if r = [] then some (.copyRows (s, t) cols vals (s2, t2)) else none

/-- CREATE TABLE and CREATE INDEX are those of Verif.Spec.DdlText. -/
def ofBase : DdlText.Stmt → Option Stmt
  | .createTable n xs => some (.createTable n xs)
  | .createIndex x => some (.createIndex x)
  | _ => none

/-- Reads the only name in `ts`. -/
def readTheName (kw : List Str) (ts : List Tok) : Option Name :=
  (readName .sqlite kw ts).bind fun (s, t, r) => if r = [] then some (s, t) else none

/-- Reads a statement. -/
def readStmt (kw : List Str) (ts : List Tok) : Option Stmt :=
  match kws [b!"PRAGMA"] ts with
  | some r => readPragma r
  | none =>
  match kws [b!"DROP", b!"TABLE"] ts with
  | some r => (readTheName kw r).map .dropTable
  | none =>
  match kws [b!"DROP", b!"INDEX"] ts with
  | some r => (readTheName kw r).map .dropIndex
  | none =>
  match kws [b!"ALTER", b!"TABLE"] ts with
  | some r => readAlter kw r
  | none =>
  match kws [b!"INSERT", b!"INTO"] ts with
  | some r => readInsert kw r
  | none => (DdlText.readStmt .sqlite kw ts).bind ofBase

/-- The statement with the full names of the tables it mentions. -/
def Stmt.resolve (cur : Str) : Stmt → Stmt
  | .pragma n v => .pragma n v
  | .createTable n xs =>
    .createTable (full cur n) (xs.map (Item.resolve .sqlite cur (n.1.getD cur)))
  | .createIndex x => .createIndex (x.resolve cur)
  | .dropTable n => .dropTable (full cur n)
  | .dropIndex n => .dropIndex (full cur n)
  | .addColumn n c => .addColumn (full cur n) c
  | .dropColumn n c => .dropColumn (full cur n) c
  | .renameTable n m => .renameTable (full cur n) m
  | .copyRows n cs vs m => .copyRows (full cur n) cs vs (full cur m)

/-- The statements of a script, with full names. -/
def runScript (kw : List Str) (cur s : Str) : Option (List Stmt) :=
  (lex .sqlite s).bind fun ts =>
    (statements ts).mapM fun ts => (readStmt kw ts).map (Stmt.resolve cur)

/-! ## Tables that can be written -/

/-- A table of the destination: its columns, constraints and indexes can be expressed, its name also
with `_new` at the end, and it has no triggers. -/
structure Writable (t : Table) : Prop where
  table : TableText .sqlite [] [] t
  schema : t.tableSchema = []
  renamed : PlainName .sqlite (t.tableName ++ b!"_new")
  columns : ∀ c ∈ CatalogSpec.liveColumns t, ColumnOk .sqlite [] true c
  indexes : ∀ x ∈ t.indexes, x.sql = [] ∧ IndexOk .sqlite false x
  triggers : t.triggers = []

/-- A table of the source. -/
structure Readable (t : Table) : Prop where
  name : PlainName .sqlite t.tableName
  columns : ∀ c ∈ t.columns, PlainName .sqlite c.columnName
  indexes : ∀ x ∈ t.indexes, PlainName .sqlite x.indexName
  triggers : t.triggers = []

/-- A column is copied when a table is rebuilt: both tables have it, and it can be set. -/
def Copied (src dest : Table) (n : Str) : Prop :=
  (∃ c ∈ src.columns, c.columnName = n) ∧
  ∃ c ∈ dest.columns, c.columnName = n ∧ c.isGenerated = false ∧ c.generatedExpr = []

end LiteText
