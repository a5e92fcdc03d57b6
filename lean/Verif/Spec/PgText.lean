import Verif.Spec.DdlStmt

/-!
# Reading the statements that are peculiar to Postgres

Independent of the model, like Verif.Spec.DdlText: the parts of ALTER TABLE that change a column or
a constraint, DROP INDEX and DROP SCHEMA … CASCADE, as in the manual of Postgres.
-/

namespace PgText
open SqlSpec Sqddl DdlText
open WipeSpec (kws readName)

/-- Parts of ALTER TABLE. -/
inductive Act
  | dropConstraint (ifExists : Bool) (name : Str)
  /-- DROP COLUMN IF EXISTS -/
  | dropColumn (name : Str)
  | addColumn (c : Col)
  | setType (col : Str) (type : List Tok) (collation : Option Tok)
  | dropDefault (col : Str)
  | setDefault (col : Str) (expr : List Tok)
  | dropNotNull (col : Str)
  | setNotNull (col : Str)
  | dropIdentity (col : Str)
  | addIdentity (col : Str) (identity : List Tok)
  | addConstraint (c : Con)
  /-- a primary key (or a unique constraint) that is made of an index -/
  | addKeyUsing (name : Str) (primary : Bool) (index : Str)
  | alterConstraint (name : Str) (deferrable initiallyDeferred : Bool)
  | validate (name : Str)
deriving DecidableEq, Repr

/-- Statements. -/
inductive Stmt
  | base (st : DdlText.Stmt)
  | dropSchemaCascade (name : Str)
  /-- DROP INDEX IF EXISTS -/
  | dropIndex (name : Name)
  | alter (table : Name) (acts : List Act)
deriving DecidableEq, Repr

/-- What follows `ALTER COLUMN c`. -/
def readColAct (c : Str) (ts : List Tok) : Option Act :=
  match kws [b!"TYPE"] ts with
  | some r =>
    if (readCollation (untilWord [b!"COLLATE"] 0 r).2).2 = [] then
      some (.setType c ((untilWord [b!"COLLATE"] 0 r).1.map foldTok)
        (readCollation (untilWord [b!"COLLATE"] 0 r).2).1)
    else none
  | none =>
  match kws [b!"DROP", b!"DEFAULT"] ts with
  | some r => if r = [] then some (.dropDefault c) else none
  | none =>
  match kws [b!"SET", b!"DEFAULT"] ts with
  | some r => if r = [] then none else some (.setDefault c r)
  | none =>
  match kws [b!"DROP", b!"NOT", b!"NULL"] ts with
  | some r => if r = [] then some (.dropNotNull c) else none
  | none =>
  match kws [b!"SET", b!"NOT", b!"NULL"] ts with
  | some r => if r = [] then some (.setNotNull c) else none
  | none =>
  match kws [b!"DROP", b!"IDENTITY"] ts with
  | some r => if r = [] then some (.dropIdentity c) else none
  | none =>
  (kws [b!"ADD"] ts).bind fun r =>
    match readIdentity .postgres r with
    | (some i, []) => some (.addIdentity c i)
    | _ => none

/-- What follows `ALTER CONSTRAINT n`. -/
def readDefer (n : Str) (ts : List Tok) : Option Act :=
  match kws [b!"NOT", b!"DEFERRABLE"] ts with
  | some r =>
    if (optKw [b!"INITIALLY", b!"DEFERRED"] r).2 = [] then
      some (.alterConstraint n false (optKw [b!"INITIALLY", b!"DEFERRED"] r).1)
    else none
  | none =>
    (kws [b!"DEFERRABLE"] ts).bind fun r =>
    if (optKw [b!"INITIALLY", b!"DEFERRED"] r).2 = [] then
      some (.alterConstraint n true (optKw [b!"INITIALLY", b!"DEFERRED"] r).1)
    else none

/-- `CONSTRAINT n (PRIMARY KEY | UNIQUE) USING INDEX i` -/
def readKeyUsing (kw : List Str) (ts : List Tok) : Option Act :=
  (kws [b!"CONSTRAINT"] ts).bind fun r =>
  r.head?.bind fun t => (nameOf .postgres kw t).bind fun n =>
  match kws [b!"PRIMARY", b!"KEY", b!"USING", b!"INDEX"] r.tail,
      kws [b!"UNIQUE", b!"USING", b!"INDEX"] r.tail with
  | some r, _ => (readOne .postgres kw r).map (.addKeyUsing n true)
  | none, some r => (readOne .postgres kw r).map (.addKeyUsing n false)
  | none, none => none

/-- What follows ADD. -/
def readAdd (kw : List Str) (ts : List Tok) : Option Act :=
  match readKeyUsing kw ts with
  | some a => some a
  | none => (readCon .postgres kw ts).map .addConstraint

/-- Reads a name and what follows it. -/
def named (kw : List Str) (ts : List Tok) (f : Str → List Tok → Option Act) : Option Act :=
  ts.head?.bind fun t => (nameOf .postgres kw t).bind fun n => f n ts.tail

/-- Reads a part of ALTER TABLE. -/
def readAct (kw : List Str) (ts : List Tok) : Option Act :=
  match kws [b!"DROP", b!"CONSTRAINT", b!"IF", b!"EXISTS"] ts with
  | some r => (readOne .postgres kw r).map (.dropConstraint true)
  | none =>
  match kws [b!"DROP", b!"CONSTRAINT"] ts with
  | some r => (readOne .postgres kw r).map (.dropConstraint false)
  | none =>
  match kws [b!"DROP", b!"COLUMN", b!"IF", b!"EXISTS"] ts with
  | some r => (readOne .postgres kw r).map .dropColumn
  | none =>
  match kws [b!"ALTER", b!"CONSTRAINT"] ts with
  | some r => named kw r readDefer
  | none =>
  match kws [b!"ALTER", b!"COLUMN"] ts with
  | some r => named kw r readColAct
  | none =>
  match kws [b!"VALIDATE", b!"CONSTRAINT"] ts with
  | some r => (readOne .postgres kw r).map .validate
  | none =>
  match kws [b!"ADD", b!"COLUMN"] ts with
  | some r => (readCol .postgres kw r).map .addColumn
  | none => (kws [b!"ADD"] ts).bind (readAdd kw)

/-- Reads a statement that is not one of Verif.Spec.DdlText. -/
def readSpecial (kw : List Str) (ts : List Tok) : Option Stmt :=
  match kws [b!"DROP", b!"SCHEMA", b!"IF", b!"EXISTS"] ts with
  | some r =>
    if kws [b!"CASCADE"] r.tail = some [] then
      r.head?.bind fun t => (nameOf .postgres kw t).map .dropSchemaCascade
    else none
  | none =>
  match kws [b!"DROP", b!"INDEX", b!"IF", b!"EXISTS"] ts with
  | some r =>
    (readName .postgres kw r).bind fun (s, t, r) => if r = [] then some (.dropIndex (s, t)) else none
  | none =>
  (kws [b!"ALTER", b!"TABLE"] ts).bind fun r =>
  (readName .postgres kw r).bind fun (s, t, r) =>
  ((splitTop 0 r).mapM (readAct kw)).map fun xs => .alter (s, t) xs

/-- Reads a statement. -/
def readStmt (kw : List Str) (ts : List Tok) : Option Stmt :=
  match kws [b!"ALTER", b!"TABLE"] ts with
  | some _ => readSpecial kw ts
  | none =>
  match DdlText.readStmt .postgres kw ts with
  | some st => some (.base st)
  | none => readSpecial kw ts

/-- The part with the full names of the tables it mentions. -/
def Act.resolve (cur owner : Str) : Act → Act
  | .addConstraint c => .addConstraint (c.resolve .postgres cur owner)
  | a => a

/-- The statement with the full names of the tables it mentions. -/
def Stmt.resolve (cur : Str) : Stmt → Stmt
  | .base st => .base (st.resolve .postgres cur)
  | .dropSchemaCascade n => .dropSchemaCascade n
  | .dropIndex n => .dropIndex (full cur n)
  | .alter n as => .alter (full cur n) (as.map (Act.resolve cur (n.1.getD cur)))

/-- The statements of a script, with full names. -/
def runScript (kw : List Str) (cur s : Str) : Option (List Stmt) :=
  (lex .postgres s).bind fun ts =>
    (statements ts).mapM fun ts => (readStmt kw ts).map (Stmt.resolve cur)

/-- A name that is written without quotes and denotes itself; `kw` are the reserved words. -/
structure SelfName (kw : List Str) (n : Str) : Prop where
  nonempty : n ≠ []
  chars : n.all wordChar = true
  name : nameOf .postgres kw (.word n) = some n

end PgText
