import Verif.Spec.HistoryText

/-!
# Queries of the catalog tables for the existence of an object

A database with schemas and objects, what the catalog tables show of it, a reader for `SELECT EXISTS (SELECT 1
FROM ... WHERE ...)` and its answer, and the effect of CREATE TABLE.  Nothing of the functions of the model is
used.
-/

namespace CatalogQuery
open SqlSpec Sqddl
open DdlText (Name inBrackets)
open WipeSpec (kws)
open SelectSpec (many mark)
open SubsetSpec (Row)

/-! ## Databases -/

inductive Kind
  | table | view | index | sequence | constraint
  /-- a partitioned table of Postgres -/
  | partitioned
deriving DecidableEq, Repr

structure Obj where
  /-- number of the schema -/
  schema : Str
  name : Str
  kind : Kind
  /-- the table of an index -/
  table : Str
deriving DecidableEq, Repr

structure Db where
  /-- numbers and names -/
  schemas : List (Str × Str)
  objects : List Obj
  /-- the schema in which names without a schema are looked up and created -/
  current : Str
deriving DecidableEq, Repr

/-- The name of a schema. -/
def Db.schemaName (db : Db) (number : Str) : Option Str := db.schemas.lookup number

/-- Numbers and names of schemas are unique, and every object is in a schema. -/
structure Db.Ok (db : Db) : Prop where
  numbers : (db.schemas.map (·.1)).Nodup
  objects : ∀ o ∈ db.objects, ∃ n, (o.schema, n) ∈ db.schemas

def columns (l : List (Str × Str)) : Row := fun c => l.lookup c

/-- What a catalog table shows. -/
def Db.relation (db : Db) : Dialect → Name → Option (List Row)
  | .sqlite, (none, n) =>
    if n = b!"sqlite_schema" then some (db.objects.filterMap fun o => match o.kind with
      | .table => some (columns [(b!"type", b!"table"), (b!"name", o.name), (b!"tbl_name", o.name)])
      | .view => some (columns [(b!"type", b!"view"), (b!"name", o.name), (b!"tbl_name", o.name)])
      | .index => some (columns [(b!"type", b!"index"), (b!"name", o.name), (b!"tbl_name", o.table)])
      | _ => none)
    else none
  | .postgres, (none, n) =>
    if n = b!"pg_namespace" then some (db.schemas.map fun s => columns [(b!"oid", s.1), (b!"nspname", s.2)])
    else if n = b!"pg_class" then some (db.objects.filterMap fun o =>
      (match o.kind with
        | .table => some b!"r"
        | .partitioned => some b!"p"
        | .view => some b!"v"
        | .index => some b!"i"
        | .sequence => some b!"S"
        | .constraint => none).map fun k =>
      columns [(b!"relname", o.name), (b!"relnamespace", o.schema), (b!"relkind", k)])
    else none
  | .mysql, (some s, n) =>
    if s = b!"information_schema" ∧ n = b!"tables" then some (db.objects.filterMap fun o =>
      (db.schemaName o.schema).bind fun s =>
      (match o.kind with
        | .table => some b!"BASE TABLE"
        | .view => some b!"VIEW"
        | _ => none).map fun k =>
      columns [(b!"table_schema", s), (b!"table_name", o.name), (b!"table_type", k)])
    else none
  | .sqlserver, (some s, n) =>
    if s = b!"sys" ∧ n = b!"tables" then some (db.objects.filterMap fun o =>
      if o.kind = .table then some (columns [(b!"schema_id", o.schema), (b!"name", o.name)]) else none)
    else none
  | _, _ => none

/-- Functions without arguments and with one. -/
def Db.call (db : Db) : Dialect → Str → Option Str → Option Str
  | .postgres, f, none => if f = b!"current_schema" then some db.current else none
  | .mysql, f, none => if f = b!"database" then some db.current else none
  | .sqlserver, f, none => if f = b!"schema_name" then some db.current else none
  | .sqlserver, f, some x => if f = b!"schema_name" then db.schemaName x else none
  | _, _, _ => none

/-! ## Queries -/

inductive Val
  | column (table : Option Str) (c : Str)
  | text (s : Str)
  /-- the first parameter -/
  | param
  | call (f : Str) (column : Option Str)
deriving DecidableEq, Repr

/-- A table with the name it has in the query. -/
structure Source where
  name : Name
  alias : Option Str
deriving DecidableEq, Repr

structure Query where
  first : Source
  join : Option (Source × Val × Val)
  conds : List (Val × Val)
deriving DecidableEq, Repr

/-- Reads a value; words are in lower case then. -/
def readVal (d : Dialect) : List Tok → Option (Val × List Tok)
  | .str s :: r => some (.text s, r)
  | .punct '?' :: r => if d = .mysql then some (.param, r) else none
  | .punct '$' :: .word n :: r => if (d = .sqlite ∨ d = .postgres) ∧ n = b!"1" then some (.param, r) else none
  | .punct '@' :: .word n :: r => if d = .sqlserver ∧ n = b!"p1" then some (.param, r) else none
  | .word f :: .punct '(' :: .punct ')' :: r => some (.call (Go.toLower f) none, r)
  | .word f :: .punct '(' :: .word c :: .punct ')' :: r => some (.call (Go.toLower f) (some (Go.toLower c)), r)
  | .word a :: .punct '.' :: .word c :: r => some (.column (some (Go.toLower a)) (Go.toLower c), r)
  | .word c :: r => some (.column none (Go.toLower c), r)
  | _ => none

def readCond (d : Dialect) (ts : List Tok) : Option ((Val × Val) × List Tok) :=
  (readVal d ts).bind fun a => (mark '=' a.2).bind fun r => (readVal d r).map fun b => ((a.1, b.1), b.2)

/-- Reads `[schema.]table [AS name]`. -/
def readSource (ts : List Tok) : Option (Source × List Tok) :=
  (match ts with
    | .word s :: .punct '.' :: .word n :: r => some ((some (Go.toLower s), Go.toLower n), r)
    | .word n :: r => some ((none, Go.toLower n), r)
    | _ => none).bind fun (p : Name × List Tok) =>
  match kws [b!"AS"] p.2 with
  | some (.word a :: r) => some (⟨p.1, some (Go.toLower a)⟩, r)
  | some _ => none
  | none => some (⟨p.1, none⟩, p.2)

/-- Reads `[JOIN source ON a = b]`. -/
def readJoin (d : Dialect) (ts : List Tok) : Option (Option (Source × Val × Val) × List Tok) :=
  match kws [b!"JOIN"] ts with
  | some r => (readSource r).bind fun j => (kws [b!"ON"] j.2).bind fun r => (readCond d r).map fun c =>
    (some (j.1, c.1), c.2)
  | none => some (none, ts)

/-- Reads `SELECT 1 FROM source [JOIN source ON a = b] WHERE a = b AND ...`. -/
def readQuery (d : Dialect) (ts : List Tok) : Option Query :=
  (kws [b!"SELECT", b!"1", b!"FROM"] ts).bind fun r => (readSource r).bind fun s =>
  (readJoin d s.2).bind fun p =>
  (kws [b!"WHERE"] p.2).bind fun r => (many (readCond d) (kws [b!"AND"]) r.length r).bind fun cs =>
  if cs.2 = [] then some ⟨s.1, p.1, cs.1⟩ else none

/-- Reads a query whether there is a row. -/
def readExists (d : Dialect) (ts : List Tok) : Option Query :=
  if d = .sqlserver then (kws [b!"IF", b!"EXISTS"] ts).bind fun r => (inBrackets r).bind fun p =>
    (kws [b!"SELECT", b!"1", b!"ELSE", b!"SELECT", b!"0"] p.2).bind fun r => if r = [] then readQuery d p.1 else none
  else (kws [b!"SELECT", b!"EXISTS"] ts).bind fun r => (inBrackets r).bind fun p =>
    if p.2 = [] then readQuery d p.1 else none

def queryOf (d : Dialect) (text : Str) : Option Query := (lex d text).bind (readExists d)

section
variable (eqv : Str → Str → Bool) (d : Dialect) (db : Db) (param : Str)

/-- The rows of the tables of a query, with their names. -/
abbrev Scope := List (Option Str × Row)

/-- The value of a column: without a table, it is that of the first table which has it. -/
def Scope.get (sc : Scope) (t : Option Str) (c : Str) : Option Str :=
  match t with
  | some t => (sc.find? fun p => p.1 = some t).bind fun p => p.2 c
  | none => sc.findSome? fun p => p.2 c

def Val.eval (sc : Scope) : Val → Option Str
  | .column t c => sc.get t c
  | .text s => some s
  | .param => some param
  | .call f none => db.call d f none
  | .call f (some c) => (sc.get none c).bind fun v => db.call d f (some v)

/-- Whether an equation holds; it does not with NULL. -/
def holds (sc : Scope) (c : Val × Val) : Bool :=
  match c.1.eval d db param sc, c.2.eval d db param sc with
  | some a, some b => eqv a b
  | _, _ => false

/-- The combinations of rows that a query looks at. -/
def Query.scopes (q : Query) : Option (List Scope) :=
  (db.relation d q.first.name).bind fun rows => match q.join with
  | none => some (rows.map fun r => [(q.first.alias, r)])
  | some (j, c) => (db.relation d j.name).map fun rows' => rows.flatMap fun r =>
      (rows'.map fun r' => [(q.first.alias, r), (j.alias, r')]).filter fun sc => holds eqv d db param sc c

/-- Whether there is a row. -/
def Query.answer (q : Query) : Option Bool :=
  (q.scopes eqv d db param).map fun scs => scs.any fun sc => q.conds.all (holds eqv d db param sc)

end

/-- The answer to the text of a query. -/
def ask (eqv : Str → Str → Bool) (d : Dialect) (db : Db) (text param : Str) : Option Bool :=
  (queryOf d text).bind (Query.answer eqv d db param)

/-! ## CREATE TABLE -/

/-- The kinds of objects that share their names with tables. -/
def shares : Dialect → Kind → Bool
  | .sqlite, k => k = .table ∨ k = .view ∨ k = .index
  | .postgres, k => k ≠ .constraint
  | .mysql, k => k = .table ∨ k = .view
  | _, k => k ≠ .index

/-- An object is where a name without a schema is created. -/
def Db.here (db : Db) (d : Dialect) (o : Obj) : Prop := d = .sqlite ∨ db.schemaName o.schema = some db.current

instance (db : Db) (d : Dialect) (o : Obj) : Decidable (db.here d o) := inferInstanceAs (Decidable (_ ∨ _))

/-- The name of an object that is to be created is taken; `same` is how names of objects are compared. -/
def Db.taken (same : Str → Str → Bool) (d : Dialect) (db : Db) (n : Str) : Prop :=
  ∃ o ∈ db.objects, db.here d o ∧ shares d o.kind = true ∧ same o.name n = true

instance (same : Str → Str → Bool) (d : Dialect) (db : Db) (n : Str) : Decidable (db.taken same d n) :=
  inferInstanceAs (Decidable (∃ o ∈ db.objects, _))

/-- The names of the primary keys of a table. -/
def keyNames (items : List DdlText.Item) : List Str := items.filterMap fun x => match x with
  | .con c => match c.kind with
    | .primary _ => c.name
    | _ => none
  | .col _ => none

/-- What is created with a table in the same namespace: in Postgres an index for the key, in SQL Server the
constraint. -/
def keyObjects (d : Dialect) (schema table : Str) (items : List DdlText.Item) : List Obj :=
  if d = .postgres then (keyNames items).map fun n => ⟨schema, n, .index, table⟩
  else if d = .sqlserver then (keyNames items).map fun n => ⟨schema, n, .constraint, table⟩
  else []

/-- The number of the current schema. -/
def Db.home (db : Db) : Option Str := (db.schemas.find? fun s => s.2 = db.current).map (·.1)

/-- The database after CREATE TABLE without a schema; `none` if it is refused. -/
def Db.create (same : Str → Str → Bool) (d : Dialect) (db : Db) : DdlText.Stmt → Option Db
  | .createTable (none, n) items =>
    db.home.bind fun s =>
    let new := ⟨s, n, .table, n⟩ :: keyObjects d s n items
    if (∀ o ∈ new, ¬ db.taken same d o.name) ∧ new.Pairwise (fun a b => same a.name b.name = false) then
      some { db with objects := db.objects ++ new }
    else none
  | _ => none

/-- The database after the text of a statement. -/
def exec (same : Str → Str → Bool) (d : Dialect) (kw : List Str) (db : Db) (text : Str) : Option Db :=
  ((lex d text).bind (DdlText.readStmt d kw)).bind (db.create same d)

/-- There is a table with this name, in the schema where names without a schema are looked up. -/
def Db.HasTable (eqv : Str → Str → Bool) (d : Dialect) (db : Db) (n : Str) : Prop :=
  ∃ o ∈ db.objects, o.kind = .table ∧ db.here d o ∧ eqv o.name n = true

end CatalogQuery
