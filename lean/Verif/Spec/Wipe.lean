import Verif.Spec.Lex

/-!
# DROP statements and what they do

Independent of the model: the grammar of the DROP statements, read from tokens, and a small engine
that runs them on a database with dependencies between its objects.
-/

namespace WipeSpec
open SqlSpec

/-- What a DROP statement says it drops. -/
inductive Kind
  | view | matview | table | procedure | function | type | domain | extension
deriving DecidableEq, Repr

/-- Statements; an object name has an optional schema. -/
inductive Stmt
  | drop (k : Kind) (schema : Option Str) (name : Str) (cascade : Bool)
  | dropConstraint (schema : Option Str) (table name : Str) (cascade : Bool)
  | deferForeignKeys
deriving DecidableEq, Repr

/-- Consumes keywords. -/
def kws : List Str → List Tok → Option (List Tok)
  | [], ts => some ts
  | _ :: _, [] => none
  | k :: ks, t :: ts => if isKw k t then kws ks ts else none

/-- Reads an object name with an optional schema. -/
def readName (d : Dialect) (kw : List Str) : List Tok → Option (Option Str × Str × List Tok)
  | a :: .punct '.' :: b :: ts =>
    (nameOf d kw a).bind fun s => (nameOf d kw b).map fun n => (some s, n, ts)
  | a :: ts => (nameOf d kw a).map fun n => (none, n, ts)
  | [] => none

/-- Reads the optional CASCADE at the end. -/
def readCascade : List Tok → Option Bool
  | [] => some false
  | [t] => if isKw b!"CASCADE" t then some true else none
  | _ => none

/-- The words that begin each kind of DROP statement. -/
def heads : List (Kind × List Str) :=
  [(.view, [b!"DROP", b!"VIEW", b!"IF", b!"EXISTS"]),
   (.matview, [b!"DROP", b!"MATERIALIZED", b!"VIEW", b!"IF", b!"EXISTS"]),
   (.table, [b!"DROP", b!"TABLE", b!"IF", b!"EXISTS"]),
   (.procedure, [b!"DROP", b!"PROCEDURE", b!"IF", b!"EXISTS"]),
   (.function, [b!"DROP", b!"FUNCTION", b!"IF", b!"EXISTS"]),
   (.type, [b!"DROP", b!"TYPE", b!"IF", b!"EXISTS"]),
   (.domain, [b!"DROP", b!"DOMAIN", b!"IF", b!"EXISTS"]),
   (.extension, [b!"DROP", b!"EXTENSION", b!"IF", b!"EXISTS"])]

/-- Reads what follows the first words of a DROP statement. -/
def readTail (d : Dialect) (kw : List Str) (k : Kind) (ts : List Tok) : Option Stmt :=
  (readName d kw ts).bind fun (s, n, r) => (readCascade r).map fun c => .drop k s n c

/-- `ALTER TABLE t DROP CONSTRAINT c` -/
def readAlter (d : Dialect) (kw : List Str) (ts : List Tok) : Option Stmt :=
  (kws [b!"ALTER", b!"TABLE"] ts).bind fun r =>
  (readName d kw r).bind fun (s, t, r) =>
  (kws [b!"DROP", b!"CONSTRAINT"] r).bind fun r =>
  (readName d kw r).bind fun (_, n, r) =>
  (readCascade r).map fun c => .dropConstraint s t n c

/-- Reads one statement. -/
def readStmt (d : Dialect) (kw : List Str) (ts : List Tok) : Option Stmt :=
  match heads.findSome? fun h => (kws h.2 ts).map fun r => (h.1, r) with
  | some (k, r) => readTail d kw k r
  | none =>
    if ts = [.word b!"PRAGMA", .word b!"defer_foreign_keys", .punct '=', .word b!"1"] then
      some .deferForeignKeys
    else readAlter d kw ts

/-- Reads a script; `kw` are the reserved words. -/
def readScript (d : Dialect) (kw : List Str) (s : Str) : Option (List Stmt) :=
  (lex d s).bind fun ts => (statements ts).mapM (readStmt d kw)

/-! ## The engine -/

/-- Kinds of objects in a database.  `other` are objects that no statement here names. -/
inductive ObjKind
  | view | matview | fkey | table | procedure | function | aggregate | enum | domain | extension
  | other
deriving DecidableEq, Repr

/-- An object of a database. -/
structure Obj where
  kind : ObjKind
  schema : Str := []
  /-- for a foreign key its table -/
  table : Str := []
  name : Str
  /-- for a routine its argument types -/
  args : Str := []
deriving DecidableEq, Repr

/-- The parts of a database that do not change while the script runs. -/
structure World where
  dialect : Dialect
  currentSchema : Str
  /-- `depends a b`: object `a` uses object `b` -/
  depends : Obj → Obj → Prop
  /-- `refs f s t`: foreign key `f` references the table `t` of schema `s` -/
  refs : Obj → Str → Str → Prop

/-- The objects that exist, and SQLite's `defer_foreign_keys`. -/
structure Db where
  has : Obj → Prop
  deferred : Bool := false

/-- `a` uses `b`, directly or through other objects. -/
inductive Uses (w : World) : Obj → Obj → Prop
  | one {a b} : w.depends a b → Uses w a b
  | more {a b c} : w.depends a b → Uses w b c → Uses w a c

/-- Which objects a DROP statement can drop. -/
def Kind.obj : Kind → ObjKind
  | .view => .view
  | .matview => .matview
  | .table => .table
  | .procedure => .procedure
  | .function => .function
  | .type => .enum
  | .domain => .domain
  | .extension => .extension

/-- The schema that a statement addresses; extensions have none. -/
def World.schema (w : World) (k : Kind) (s : Option Str) : Str :=
  if k = .extension then [] else s.getD w.currentSchema

/-- A foreign key of the table. -/
def ownKey (s t : Str) (o : Obj) : Prop := o.kind = .fkey ∧ o.schema = s ∧ o.table = t

/-- Objects that a DROP of the named object removes: the object, a table's own foreign keys and, on
Postgres with CASCADE, everything that uses it. -/
def removed (w : World) (k : Kind) (s n : Str) (cascade : Bool) (o : Obj) : Prop :=
  (o.kind = k.obj ∧ o.schema = s ∧ o.name = n) ∨
  (k = .table ∧ ownKey s n o) ∨
  (w.dialect = .postgres ∧ cascade = true ∧
    ∃ x, x.kind = k.obj ∧ x.schema = s ∧ x.name = n ∧ Uses w o x)

/-- Why a DROP is refused:
* the name stands for several routines (Postgres allows overloading), or for an aggregate, which
  needs DROP AGGREGATE;
* on Postgres without CASCADE another object uses it;
* MySQL and SQL Server: a foreign key of another table references the table; SQLite as well, unless
  foreign keys are deferred. -/
def refused (w : World) (db : Db) (k : Kind) (s n : Str) (cascade : Bool) : Prop :=
  ((k = .function ∨ k = .procedure) ∧
    ((∃ a b, a ≠ b ∧ db.has a ∧ db.has b ∧ a.kind = k.obj ∧ b.kind = k.obj ∧
      a.schema = s ∧ b.schema = s ∧ a.name = n ∧ b.name = n) ∨
     ∃ a, db.has a ∧ a.kind = .aggregate ∧ a.schema = s ∧ a.name = n)) ∨
  (w.dialect = .postgres ∧ cascade = false ∧
    ∃ a x, db.has a ∧ db.has x ∧ x.kind = k.obj ∧ x.schema = s ∧ x.name = n ∧ w.depends a x) ∨
  (k = .table ∧ w.dialect ≠ .postgres ∧ (w.dialect = .sqlite → db.deferred = false) ∧
    (∃ f, db.has f ∧ f.kind = .fkey ∧ ¬ ownKey s n f ∧ w.refs f s n) ∧
    ∃ x, db.has x ∧ x.kind = .table ∧ x.schema = s ∧ x.name = n)

/-- Runs one statement; `none` is an error. -/
noncomputable def exec (w : World) (st : Stmt) (db : Db) : Option Db :=
  open Classical in
  match st with
  | .drop k s n c =>
    if refused w db k (w.schema k s) n c then none
    else some { db with has := fun o => db.has o ∧ ¬ removed w k (w.schema k s) n c o }
  | .dropConstraint s t n c =>
    if ∃ o, db.has o ∧ ownKey (s.getD w.currentSchema) t o ∧ o.name = n then
      some { db with has := fun o => db.has o ∧
        ¬ (ownKey (s.getD w.currentSchema) t o ∧ o.name = n) ∧
        ¬ (w.dialect = .postgres ∧ c = true ∧
            ∃ x, ownKey (s.getD w.currentSchema) t x ∧ x.name = n ∧ Uses w o x) }
    else none
  | .deferForeignKeys => some { db with deferred := true }

/-- Runs a script. -/
noncomputable def runAll (w : World) : List Stmt → Db → Option Db
  | [], db => some db
  | st :: r, db => (exec w st db).bind (runAll w r)

/-- At the end of a transaction SQLite checks deferred foreign keys: a foreign key that still
exists must reference a table that exists (the rows are not modelled). -/
def commitOk (w : World) (db : Db) : Prop :=
  w.dialect = .sqlite → db.deferred = true → ∀ f s t, db.has f → f.kind = .fkey → w.refs f s t →
    ∃ x, db.has x ∧ x.kind = .table ∧ x.schema = s ∧ x.name = t

end WipeSpec
