import Verif.Spec.DdlStmt

/-!
# Reading the statements that are peculiar to SQL Server

Independent of the model, like Verif.Spec.DdlText: the parts of ALTER TABLE that change a column, DROP
statements without IF EXISTS, CREATE SCHEMA inside of EXEC, and the block that looks up the name of a
default constraint and drops it.
-/

namespace MsText
open SqlSpec Sqddl DdlText
open WipeSpec (kws readName)

/-- Parts of ALTER TABLE. -/
inductive Act
  | dropConstraint (name : Str)
  | dropColumn (name : Str)
  | addColumn (c : Col)
  | addConstraint (c : Con)
  /-- ADD DEFAULT e FOR c -/
  | addDefault (expr : List Tok) (col : Str)
  /-- ALTER COLUMN; `notNull` is `some true` for NOT NULL, `some false` for NULL -/
  | alterColumn (col : Str) (type : List Tok) (collation : Option Tok) (notNull : Option Bool)
deriving DecidableEq, Repr

/-- What DROP drops. -/
inductive Kind
  | view | table | procedure | function
deriving DecidableEq, Repr

/-- Statements. -/
inductive Stmt
  /-- CREATE TABLE and CREATE INDEX -/
  | base (st : DdlText.Stmt)
  /-- creates the schema `name` unless there is a schema `guard` -/
  | createSchema (guard name : Str)
  | dropSchema (name : Str)
  | drop (kind : Kind) (name : Name)
  | dropIndex (index : Str) (table : Name)
  | alter (table : Name) (act : Act)
  /-- The block that looks up the name of a default constraint of a table
  and drops the constraint of that name of the table `target`. -/
  | dropDefault (schema table column : Str) (target : Name)
deriving DecidableEq, Repr

/-- What follows ALTER COLUMN and the name: a type, an optional COLLATE and an optional NULL or NOT
NULL. -/
def readColAct (c : Str) (ts : List Tok) : Option Act :=
  let (type, r) := untilWord [b!"COLLATE", b!"NOT", b!"NULL"] 0 ts
  let (coll, r) := readCollation r
  if type = [] then none
  else if r = [] then some (.alterColumn c (type.map foldTok) coll none)
  else if kws [b!"NULL"] r = some [] then some (.alterColumn c (type.map foldTok) coll (some false))
  else if kws [b!"NOT", b!"NULL"] r = some [] then
    some (.alterColumn c (type.map foldTok) coll (some true))
  else none

/-- What follows ADD DEFAULT. -/
def readAddDefault (kw : List Str) (ts : List Tok) : Option Act :=
  if (untilWord [b!"FOR"] 0 ts).1 = [] then none
  else (kws [b!"FOR"] (untilWord [b!"FOR"] 0 ts).2).bind fun r =>
    (readOne .sqlserver kw r).map (.addDefault (untilWord [b!"FOR"] 0 ts).1)

/-- What follows ADD. -/
def readAdd (kw : List Str) (ts : List Tok) : Option Act :=
  match kws [b!"DEFAULT"] ts with
  | some r => readAddDefault kw r
  | none =>
    (readItem .sqlserver kw ts).map fun
      | .col c => .addColumn c
      | .con c => .addConstraint c

/-- Reads the part of ALTER TABLE. -/
def readAct (kw : List Str) (ts : List Tok) : Option Act :=
  match kws [b!"DROP", b!"CONSTRAINT"] ts with
  | some r => (readOne .sqlserver kw r).map .dropConstraint
  | none =>
  match kws [b!"DROP", b!"COLUMN"] ts with
  | some r => (readOne .sqlserver kw r).map .dropColumn
  | none =>
  match kws [b!"ALTER", b!"COLUMN"] ts with
  | some r => r.head?.bind fun t => (nameOf .sqlserver kw t).bind fun n => readColAct n r.tail
  | none => (kws [b!"ADD"] ts).bind (readAdd kw)

/-- The words that begin the DROP statements. -/
def dropHeads : List (Kind × List Str) :=
  [(.view, [b!"DROP", b!"VIEW"]), (.table, [b!"DROP", b!"TABLE"]),
   (.procedure, [b!"DROP", b!"PROCEDURE"]), (.function, [b!"DROP", b!"FUNCTION"])]

/-- DROP VIEW, DROP TABLE, DROP PROCEDURE or DROP FUNCTION -/
def readDrop (kw : List Str) (ts : List Tok) : Option Stmt :=
  (dropHeads.findSome? fun h => (kws h.2 ts).map fun r => (h.1, r)).bind fun (k, r) =>
  (readName .sqlserver kw r).bind fun (s, n, r) => if r = [] then some (.drop k (s, n)) else none

/-- `DROP INDEX i ON t` -/
def readDropIndex (kw : List Str) (ts : List Tok) : Option Stmt :=
  ts.head?.bind fun t => (nameOf .sqlserver kw t).bind fun x =>
  (kws [b!"ON"] ts.tail).bind fun r =>
  (readName .sqlserver kw r).bind fun (s, n, r) => if r = [] then some (.dropIndex x (s, n)) else none

/-- `CREATE SCHEMA n`, the statement inside of EXEC -/
def readInner (kw : List Str) (q : Str) : Option Str :=
  (lex .sqlserver q).bind fun ts => (kws [b!"CREATE", b!"SCHEMA"] ts).bind (readOne .sqlserver kw)

/-- `IF SCHEMA_ID('x') IS NULL EXEC('CREATE SCHEMA x')` -/
def readCreateSchema (kw : List Str) : List Tok → Option Stmt
  | [.word i, .word sid, .punct '(', .str x, .punct ')', .word is, .word null, .word exec,
      .punct '(', .str q, .punct ')'] =>
    if i = b!"IF" ∧ sid = b!"SCHEMA_ID" ∧ is = b!"IS" ∧ null = b!"NULL" ∧ exec = b!"EXEC" then
      (readInner kw q).map (.createSchema x)
    else none
  | _ => none

/-- Reads a statement. -/
def readStmt (kw : List Str) (ts : List Tok) : Option Stmt :=
  match kws [b!"CREATE"] ts with
  | some _ =>
    match DdlText.readStmt .sqlserver kw ts with
    | some (.createTable n xs) => some (.base (.createTable n xs))
    | some (.createIndex x) => some (.base (.createIndex x))
    | _ => none
  | none =>
  match kws [b!"IF"] ts with
  | some _ => readCreateSchema kw ts
  | none =>
  match kws [b!"ALTER", b!"TABLE"] ts with
  | some r =>
    (readName .sqlserver kw r).bind fun (s, t, r) =>
    match splitTop 0 r with
    | [p] => (readAct kw p).map (.alter (s, t))
    | _ => none
  | none =>
  match kws [b!"DROP", b!"SCHEMA"] ts with
  | some r => (readOne .sqlserver kw r).map .dropSchema
  | none =>
  match kws [b!"DROP", b!"INDEX"] ts with
  | some r => readDropIndex kw r
  | none => readDrop kw ts

/-! ## The block that drops a default -/

/-- A text of words and punctuation as tokens. -/
def words (s : Str) : List Tok := (lex .sqlserver s).getD []

/-- The beginning of the block. -/
def declare : List Tok := words b!"BEGIN DECLARE @name NVARCHAR(255)"

/-- The query up to the name of the schema.  The rows are default constraints of tables, each with
every column *of any table* that has the number of the column of the default. -/
def lookup : List Tok := words
  b!"SELECT @name = default_constraints.name FROM sys.default_constraints JOIN sys.tables ON tables.object_id = default_constraints.parent_object_id JOIN sys.columns ON columns.column_id = default_constraints.parent_column_id WHERE SCHEMA_NAME(tables.schema_id) ="

/-- The query between the names of the schema and of the table. -/
def andTable : List Tok := words b!"AND tables.name ="

/-- The query between the names of the table and of the column. -/
def andColumn : List Tok := words b!"AND columns.name ="

/-- What follows these tokens. -/
def after (pre ts : List Tok) : Option (List Tok) :=
  if ts.take pre.length = pre then some (ts.drop pre.length) else none

/-- Reads a string literal. -/
def readStr : List Tok → Option (Str × List Tok)
  | .str s :: r => some (s, r)
  | _ => none

/-- Reads the query: the names of the schema, the table and the column. -/
def readLookup (ts : List Tok) : Option (Str × Str × Str) :=
  (after lookup ts).bind fun r => (readStr r).bind fun (s, r) =>
  (after andTable r).bind fun r => (readStr r).bind fun (t, r) =>
  (after andColumn r).bind fun r => (readStr r).bind fun (c, r) =>
  if r = [] then some (s, t, c) else none

/-- `ALTER TABLE t DROP CONSTRAINT`, the beginning of a statement -/
def readDropOf (kw : List Str) (q : Str) : Option Name :=
  (lex .sqlserver q).bind fun ts => (kws [b!"ALTER", b!"TABLE"] ts).bind fun r =>
  (readName .sqlserver kw r).bind fun (s, t, r) =>
  if kws [b!"DROP", b!"CONSTRAINT"] r = some [] then some (s, t) else none

/-- `EXEC('ALTER TABLE t DROP CONSTRAINT ' + @name)` -/
def readExec (kw : List Str) : List Tok → Option Name
  | [.word exec, .punct '(', .str q, .punct '+', .punct '@', .word name, .punct ')'] =>
    if exec = b!"EXEC" ∧ name = b!"name" then readDropOf kw q else none
  | _ => none

/-- The three statements of the block and END. -/
def readBlock (kw : List Str) (a b c d : List Tok) : Option Stmt :=
  if a = declare ∧ d = [.word b!"END"] then
    (readLookup b).bind fun (s, t, x) => (readExec kw c).map (.dropDefault s t x)
  else none

/-- Reads statements; a block has four parts. -/
def readAll (kw : List Str) : List (List Tok) → Option (List Stmt)
  | [] => some []
  | a :: r =>
    match readStmt kw a with
    | some st => (readAll kw r).map (st :: ·)
    | none =>
      match r with
      | b :: c :: d :: r =>
        (readBlock kw a b c d).bind fun st => (readAll kw r).map (st :: ·)
      | _ => none

/-! ## Full names -/

/-- The part with the full names of the tables it mentions. -/
def Act.resolve (cur owner : Str) : Act → Act
  | .addConstraint c => .addConstraint (c.resolve .sqlserver cur owner)
  | a => a

/-- The statement with the full names of the tables it mentions. -/
def Stmt.resolve (cur : Str) : Stmt → Stmt
  | .base st => .base (st.resolve .sqlserver cur)
  | .createSchema x n => .createSchema x n
  | .dropSchema n => .dropSchema n
  | .drop k n => .drop k (full cur n)
  | .dropIndex x n => .dropIndex x (full cur n)
  | .alter n a => .alter (full cur n) (a.resolve cur (n.1.getD cur))
  | .dropDefault s t c n => .dropDefault s t c (full cur n)

/-- The statements of a script, with full names. -/
def runScript (kw : List Str) (cur s : Str) : Option (List Stmt) :=
  (lex .sqlserver s).bind fun ts =>
    (readAll kw (statements ts)).map fun sts => sts.map (Stmt.resolve cur)

end MsText
