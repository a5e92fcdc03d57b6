import Verif.Spec.Wipe

/-!
# Reading DDL statements

Independent of the model: the grammar of the statements that define and change tables, read from
tokens.  The grammar is the part of the grammars in the manuals of SQLite, Postgres, MySQL and SQL
Server that is needed here; a statement outside of it is not read (`none`).
-/

namespace DdlText
open SqlSpec
open WipeSpec (kws readName)

/-- An object name with an optional schema. -/
abbrev Name := Option Str × Str

/-- Adds a token to the first part. -/
def consHead (t : Tok) : List (List Tok) → List (List Tok)
  | [] => [[t]]
  | p :: ps => (t :: p) :: ps

/-- The depth of brackets after a token. -/
def deeper (n : Nat) (t : Tok) : Nat :=
  if t = .punct '(' then n + 1 else if t = .punct ')' then n - 1 else n

/-- Splits at the commas outside of brackets; `n` brackets are open. -/
def splitTop : Nat → List Tok → List (List Tok)
  | _, [] => [[]]
  | n, t :: r =>
    if t = .punct ',' ∧ n = 0 then [] :: splitTop 0 r
    else consHead t (splitTop (deeper n t) r)

/-- The tokens up to the bracket that closes `n + 1` open brackets, and those after it. -/
def closing : Nat → List Tok → Option (List Tok × List Tok)
  | _, [] => none
  | n, t :: r =>
    if t = .punct ')' ∧ n = 0 then some ([], r)
    else (closing (deeper n t) r).map fun p => (t :: p.1, p.2)

/-- Reads a group in brackets: its inside, and what follows. -/
def inBrackets : List Tok → Option (List Tok × List Tok)
  | [] => none
  | t :: r => if t = .punct '(' then closing 0 r else none

/-- An optional group of keywords: whether it is there, and what follows. -/
def optKw (ks : List Str) (ts : List Tok) : Bool × List Tok :=
  match kws ks ts with
  | some r => (true, r)
  | none => (false, ts)

/-- Words are compared without regard to case. -/
def foldTok : Tok → Tok
  | .word w => .word (Go.toLower w)
  | t => t

/-- Reads a single name. -/
def readOne (d : Dialect) (kw : List Str) : List Tok → Option Str
  | [t] => nameOf d kw t
  | _ => none

/-- Reads `(a, b, …)`. -/
def readCols (d : Dialect) (kw : List Str) (ts : List Tok) : Option (List Str × List Tok) :=
  (inBrackets ts).bind fun p => ((splitTop 0 p.1).mapM (readOne d kw)).map fun cs => (cs, p.2)

/-! ## Constraints -/

/-- What happens to a row whose referenced row is changed or deleted. -/
inductive Rule
  | noAction | restrict | cascade | setNull | setDefault
deriving DecidableEq, Repr

/-- How the rules are written. -/
def ruleWords : List (Rule × List Str) :=
  [(.noAction, [b!"NO", b!"ACTION"]), (.restrict, [b!"RESTRICT"]), (.cascade, [b!"CASCADE"]),
   (.setNull, [b!"SET", b!"NULL"]), (.setDefault, [b!"SET", b!"DEFAULT"])]

/-- Reads a rule. -/
def readRule (ts : List Tok) : Option (Rule × List Tok) :=
  ruleWords.findSome? fun p => (kws p.2 ts).map fun r => (p.1, r)

/-- Reads `ON UPDATE rule` or `ON DELETE rule`; NO ACTION is the default. -/
def readOn (ev : Str) (ts : List Tok) : Option (Rule × List Tok) :=
  match kws [b!"ON", ev] ts with
  | some r => readRule r
  | none => some (.noAction, ts)

/-- What a foreign key references. -/
structure Ref where
  table : Name
  cols : List Str
  /-- FULL or PARTIAL; SIMPLE is the default -/
  matching : Option Str
  onUpdate : Rule
  onDelete : Rule
deriving DecidableEq, Repr

/-- `[MATCH FULL]` -/
def readMatch (ts : List Tok) : Option Str × List Tok :=
  match kws [b!"MATCH"] ts with
  | some (.word w :: r) =>
    (if Go.toLower w = b!"simple" then none else some (Go.toLower w), r)
  | _ => (none, ts)

/-- `REFERENCES t (…) [MATCH …] [ON UPDATE …] [ON DELETE …]` -/
def readRef (d : Dialect) (kw : List Str) (ts : List Tok) : Option (Ref × List Tok) :=
  (kws [b!"REFERENCES"] ts).bind fun r =>
  (readName d kw r).bind fun (s, t, r) =>
  (readCols d kw r).bind fun (cs, r) =>
  let (m, r) := readMatch r
  (readOn b!"UPDATE" r).bind fun (u, r) =>
  (readOn b!"DELETE" r).map fun (del, r) => (⟨(s, t), cs, m, u, del⟩, r)

/-- The tokens before the first word of `stops` outside of brackets, and the rest; `n` brackets are
open. -/
def untilWord (stops : List Str) : Nat → List Tok → List Tok × List Tok
  | _, [] => ([], [])
  | n, t :: r =>
    if n = 0 ∧ stops.any (fun k => isKw k t) then ([], t :: r)
    else (t :: (untilWord stops (deeper n t) r).1, (untilWord stops (deeper n t) r).2)

/-- `[USING method]` -/
def readUsing (ts : List Tok) : Option Str × List Tok :=
  match kws [b!"USING"] ts with
  | some (.word w :: r) => (some (Go.toLower w), r)
  | _ => (none, ts)

/-- Kinds of constraints. -/
inductive ConKind
  | primary (cols : List Str)
  | unique (cols : List Str)
  | foreign (cols : List Str) (ref : Ref)
  | check (expr : List Tok)
  /-- `EXCLUDE [USING method] (element WITH operator, …) [WHERE (predicate)]` -/
  | exclude (method : Option Str) (elems : List (List Tok × List Tok)) (pred : Option (List Tok))
deriving DecidableEq, Repr

/-- A constraint. -/
structure Con where
  name : Option Str
  kind : ConKind
  deferrable : Bool
  initiallyDeferred : Bool
  notValid : Bool
deriving DecidableEq, Repr

/-- `element WITH operator` -/
def readElem (ts : List Tok) : Option (List Tok × List Tok) :=
  (kws [b!"WITH"] (untilWord [b!"WITH"] 0 ts).2).map fun op => ((untilWord [b!"WITH"] 0 ts).1, op)

/-- `[WHERE (predicate)]` -/
def readWhere (ts : List Tok) : Option (Option (List Tok) × List Tok) :=
  match kws [b!"WHERE"] ts with
  | none => some (none, ts)
  | some r => (inBrackets r).map fun (p, r) => (some p, r)

/-- What follows EXCLUDE. -/
def readExclude (ts : List Tok) : Option (ConKind × List Tok) :=
  let (m, r) := readUsing ts
  (inBrackets r).bind fun (inner, r) =>
  ((splitTop 0 inner).mapM readElem).bind fun es =>
  (readWhere r).map fun (p, r) => (.exclude m es p, r)

/-- Reads the kind of a constraint. -/
def readKind (d : Dialect) (kw : List Str) (ts : List Tok) : Option (ConKind × List Tok) :=
  match kws [b!"PRIMARY", b!"KEY"] ts with
  | some r => (readCols d kw r).map fun (cs, r) => (.primary cs, r)
  | none =>
  match kws [b!"UNIQUE"] ts with
  | some r => (readCols d kw r).map fun (cs, r) => (.unique cs, r)
  | none =>
  match kws [b!"FOREIGN", b!"KEY"] ts with
  | some r =>
    (readCols d kw r).bind fun (cs, r) => (readRef d kw r).map fun (ref, r) => (.foreign cs ref, r)
  | none =>
  match kws [b!"CHECK"] ts with
  | some r => (inBrackets r).map fun (e, r) => (.check e, r)
  | none =>
  (kws [b!"EXCLUDE"] ts).bind readExclude

/-- `[CONSTRAINT name]` -/
def readConName (d : Dialect) (kw : List Str) (ts : List Tok) : Option (Option Str × List Tok) :=
  match kws [b!"CONSTRAINT"] ts with
  | none => some (none, ts)
  | some [] => none
  | some (t :: r) => (nameOf d kw t).map fun n => (some n, r)

/-- Reads a constraint. -/
def readCon (d : Dialect) (kw : List Str) (ts : List Tok) : Option Con :=
  (readConName d kw ts).bind fun (name, r) =>
  (readKind d kw r).bind fun (kind, r) =>
  let (a, r) := optKw [b!"DEFERRABLE"] r
  let (b, r) := optKw [b!"INITIALLY", b!"DEFERRED"] r
  let (c, r) := optKw [b!"NOT", b!"VALID"] r
  if r = [] then some ⟨name, kind, a, b, c⟩ else none

/-! ## Columns -/

/-- A column definition. -/
structure Col where
  name : Str
  type : List Tok
  primary : Bool
  autoincrement : Bool
  notNull : Bool
  unique : Bool
  identity : Option (List Tok)
  default : Option (List Tok)
  onUpdateNow : Bool
  collation : Option Tok
  /-- the expression of a generated column and whether its values are stored -/
  generated : Option (List Tok × Bool)
  ref : Option Ref
  deferrable : Bool
  initiallyDeferred : Bool
deriving DecidableEq, Repr

/-- The words that end the type or the default of a column. -/
def stops : List Str :=
  [b!"PRIMARY", b!"AUTO_INCREMENT", b!"AUTOINCREMENT", b!"NOT", b!"UNIQUE", b!"IDENTITY",
   b!"GENERATED", b!"DEFAULT", b!"ON", b!"COLLATE", b!"AS", b!"REFERENCES"]

/-- Postgres: `GENERATED … AS IDENTITY`; SQL Server: `IDENTITY` or `IDENTITY(seed, increment)`. -/
def readIdentity (d : Dialect) (ts : List Tok) : Option (List Tok) × List Tok :=
  if d = .postgres then
    match kws [b!"GENERATED", b!"ALWAYS", b!"AS", b!"IDENTITY"] ts,
        kws [b!"GENERATED", b!"BY", b!"DEFAULT", b!"AS", b!"IDENTITY"] ts with
    | some r, _ => (some (ts.take 4), r)
    | none, some r => (some (ts.take 5), r)
    | none, none => (none, ts)
  else if d = .sqlserver then
    match kws [b!"IDENTITY"] ts with
    | some r =>
      match inBrackets r with
      | some (_, r') => (some (ts.take (ts.length - r'.length)), r')
      | none => (some (ts.take 1), r)
    | none => (none, ts)
  else (none, ts)

/-- `[DEFAULT expression]` -/
def readDefault (ts : List Tok) : Option (List Tok) × List Tok :=
  match kws [b!"DEFAULT"] ts with
  | some r => (some (untilWord stops 0 r).1, (untilWord stops 0 r).2)
  | none => (none, ts)

/-- `[COLLATE name]` -/
def readCollation (ts : List Tok) : Option Tok × List Tok :=
  match kws [b!"COLLATE"] ts with
  | some (t :: r) => (some t, r)
  | _ => (none, ts)

/-- The expression of a generated column: `[GENERATED ALWAYS] AS (…)` and STORED (SQL Server:
PERSISTED). -/
def readGenerated (d : Dialect) (ts : List Tok) : Option (List Tok × Bool) × List Tok :=
  let r := (optKw [b!"GENERATED", b!"ALWAYS"] ts).2
  match kws [b!"AS"] r with
  | none => (none, ts)
  | some r =>
    match inBrackets r with
    | none => (none, ts)
    | some (e, r) =>
      let (s, r) := optKw [if d = .sqlserver then b!"PERSISTED" else b!"STORED"] r
      (some (e, s), r)

/-- `[REFERENCES …]`; `none` if it cannot be read. -/
def readColRef (d : Dialect) (kw : List Str) (ts : List Tok) : Option (Option Ref × List Tok) :=
  match kws [b!"REFERENCES"] ts with
  | none => some (none, ts)
  | some _ => (readRef d kw ts).map fun (x, r) => (some x, r)

/-- What may not be combined: a generated column has no default; MySQL wants the attributes of a
generated column behind the expression; on SQL Server a generated column has no type and no
attributes; AUTOINCREMENT of SQLite belongs to a primary key. -/
def Col.allowed (d : Dialect) (c : Col) : Bool :=
  !(c.generated.isSome && c.default.isSome) &&
  !(d = .mysql && c.generated.isSome &&
    (c.primary || c.autoincrement || c.notNull || c.unique || c.onUpdateNow)) &&
  !(d = .sqlserver && c.generated.isSome && (!c.type.isEmpty || c.notNull || c.identity.isSome)) &&
  !(d = .sqlite && c.autoincrement && !c.primary)

/-- Reads a column definition. -/
def readCol (d : Dialect) (kw : List Str) : List Tok → Option Col
  | [] => none
  | t :: r =>
    (nameOf d kw t).bind fun name =>
    let (type, r) := untilWord stops 0 r
    let (primary, r) := optKw [b!"PRIMARY", b!"KEY"] r
    let (auto, r) := optKw [if d = .mysql then b!"AUTO_INCREMENT" else b!"AUTOINCREMENT"] r
    let (notNull, r) := optKw [b!"NOT", b!"NULL"] r
    let (unique, r) := optKw [b!"UNIQUE"] r
    let (identity, r) := readIdentity d r
    let (default, r) := readDefault r
    let (now, r) := optKw [b!"ON", b!"UPDATE", b!"CURRENT_TIMESTAMP"] r
    let (collation, r) := readCollation r
    let (generated, r) := readGenerated d r
    (readColRef d kw r).bind fun (ref, r) =>
    let (a, r) := optKw [b!"DEFERRABLE"] r
    let (b, r) := optKw [b!"INITIALLY", b!"DEFERRED"] r
    let col : Col :=
      ⟨name, type.map foldTok, primary, auto, notNull, unique, identity, default, now, collation,
        generated, ref, a, b⟩
    if r = [] ∧ col.allowed d then some col else none

/-! ## Indexes -/

/-- A column or an expression of an index. -/
inductive IdxCol
  | column (name : Str) (desc : Bool)
  | expr (toks : List Tok) (desc : Bool)
deriving DecidableEq, Repr

/-- An index; `table` is missing inside of ALTER TABLE. -/
structure Idx where
  unique : Bool
  /-- FULLTEXT or SPATIAL -/
  kind : Option Str
  name : Str
  concurrently : Bool
  table : Option Name
  method : Option Str
  cols : List IdxCol
  incl : List Str
  pred : List Tok
deriving DecidableEq, Repr

/-- Reads a column or `(expression)`, with an optional DESC. -/
def readIdxCol (d : Dialect) (kw : List Str) (ts : List Tok) : Option IdxCol :=
  match inBrackets ts with
  | some (e, r) =>
    let (desc, r) := optKw [b!"DESC"] r
    if r = [] then some (.expr e desc) else none
  | none =>
    match ts with
    | [] => none
    | t :: r =>
      (nameOf d kw t).bind fun n =>
      let (desc, r) := optKw [b!"DESC"] r
      if r = [] then some (.column n desc) else none

/-- `[UNIQUE | FULLTEXT | SPATIAL] INDEX` -/
def readIdxHead (ts : List Tok) : Option (Bool × Option Str × List Tok) :=
  match kws [b!"UNIQUE", b!"INDEX"] ts with
  | some r => some (true, none, r)
  | none =>
  match kws [b!"FULLTEXT", b!"INDEX"] ts with
  | some r => some (false, some b!"fulltext", r)
  | none =>
  match kws [b!"SPATIAL", b!"INDEX"] ts with
  | some r => some (false, some b!"spatial", r)
  | none => (kws [b!"INDEX"] ts).map fun r => (false, none, r)

/-- `[ON table]`; inside of ALTER TABLE it is missing. -/
def readIdxTable (d : Dialect) (kw : List Str) (inline : Bool) (ts : List Tok) :
    Option (Option Name × List Tok) :=
  if inline then some (none, ts)
  else (kws [b!"ON"] ts).bind fun r => (readName d kw r).map fun (s, t, r) => (some (s, t), r)

/-- `[INCLUDE (…)]` -/
def readInclude (d : Dialect) (kw : List Str) (ts : List Tok) : Option (List Str × List Tok) :=
  match kws [b!"INCLUDE"] ts with
  | none => some ([], ts)
  | some r => readCols d kw r

/-- `[WHERE predicate]`, the rest of the tokens -/
def readPred (ts : List Tok) : Option (List Tok) :=
  match kws [b!"WHERE"] ts with
  | none => if ts = [] then some [] else none
  | some r => some r

/-- Reads what follows CREATE, or ADD in ALTER TABLE.  In MySQL the method comes before ON, in
Postgres after the table. -/
def readIdx (d : Dialect) (kw : List Str) (inline : Bool) (ts : List Tok) : Option Idx :=
  (readIdxHead ts).bind fun (u, k, r) =>
  let (conc, r) := if d = .postgres then optKw [b!"CONCURRENTLY"] r else (false, r)
  match r with
  | [] => none
  | t :: r =>
    (nameOf d kw t).bind fun name =>
    let (m1, r) := if d = .mysql then readUsing r else (none, r)
    (readIdxTable d kw inline r).bind fun (table, r) =>
    let (m2, r) := if d = .postgres then readUsing r else (none, r)
    (inBrackets r).bind fun (inner, r) =>
    ((splitTop 0 inner).mapM (readIdxCol d kw)).bind fun cols =>
    (readInclude d kw r).bind fun (incl, r) =>
    (readPred r).map fun p => ⟨u, k, name, conc, table, m1.or m2, cols, incl, p⟩

/-! ## Statements -/

/-- The parts of an ALTER TABLE statement. -/
inductive Action
  | dropConstraint (name : Str)
  | dropIndex (name : Str)
  | dropColumn (name : Str)
  | addColumn (c : Col)
  | modifyColumn (c : Col)
  | addIndex (x : Idx)
  | addConstraint (c : Con)
  | validate (name : Str)
deriving DecidableEq, Repr

/-- Reads a part of ALTER TABLE. -/
def readAction (d : Dialect) (kw : List Str) (ts : List Tok) : Option Action :=
  match kws [b!"DROP", b!"CONSTRAINT"] ts with
  | some r => (readOne d kw r).map .dropConstraint
  | none =>
  match kws [b!"DROP", b!"INDEX"] ts with
  | some r => (readOne d kw r).map .dropIndex
  | none =>
  match kws [b!"DROP", b!"COLUMN"] ts with
  | some r => (readOne d kw r).map .dropColumn
  | none =>
  match kws [b!"ADD", b!"COLUMN"] ts with
  | some r => (readCol d kw r).map .addColumn
  | none =>
  match kws [b!"MODIFY", b!"COLUMN"] ts with
  | some r => (readCol d kw r).map .modifyColumn
  | none =>
  match kws [b!"VALIDATE", b!"CONSTRAINT"] ts with
  | some r => (readOne d kw r).map .validate
  | none =>
  match kws [b!"ADD"] ts with
  | none => none
  | some r =>
    if (readIdxHead r).isSome then (readIdx d kw true r).map .addIndex
    else (readCon d kw r).map .addConstraint

/-- The items of CREATE TABLE. -/
inductive Item
  | col (c : Col)
  | con (c : Con)
deriving DecidableEq, Repr

/-- The words that begin a constraint. -/
def conWords (d : Dialect) : List Str :=
  [b!"CONSTRAINT", b!"PRIMARY", b!"UNIQUE", b!"FOREIGN", b!"CHECK"] ++
  if d = .postgres then [b!"EXCLUDE"] else []

/-- Whether an item is a constraint. -/
def startsCon (d : Dialect) (ts : List Tok) : Bool :=
  (conWords d).any fun k => ts.head?.any (isKw k)

/-- Reads an item of CREATE TABLE. -/
def readItem (d : Dialect) (kw : List Str) (ts : List Tok) : Option Item :=
  if startsCon d ts then (readCon d kw ts).map .con else (readCol d kw ts).map .col

/-- Statements. -/
inductive Stmt
  | createSchema (name : Str)
  | dropSchema (name : Str)
  | dropTable (name : Name)
  | createTable (name : Name) (items : List Item)
  | createIndex (x : Idx)
  | alterTable (name : Name) (actions : List Action)
deriving DecidableEq, Repr

/-- `CREATE TABLE t (…)` -/
def readCreateTable (d : Dialect) (kw : List Str) (ts : List Tok) : Option Stmt :=
  (readName d kw ts).bind fun (s, t, r) =>
  (inBrackets r).bind fun (inner, r) =>
  if r = [] then ((splitTop 0 inner).mapM (readItem d kw)).map fun xs => .createTable (s, t) xs
  else none

/-- `ALTER TABLE t …` -/
def readAlterTable (d : Dialect) (kw : List Str) (ts : List Tok) : Option Stmt :=
  (readName d kw ts).bind fun (s, t, r) =>
  ((splitTop 0 r).mapM (readAction d kw)).map fun xs => .alterTable (s, t) xs

/-- Reads one statement. -/
def readStmt (d : Dialect) (kw : List Str) (ts : List Tok) : Option Stmt :=
  match kws [b!"CREATE", b!"SCHEMA", b!"IF", b!"NOT", b!"EXISTS"] ts with
  | some r => (readOne d kw r).map .createSchema
  | none =>
  match kws [b!"DROP", b!"SCHEMA", b!"IF", b!"EXISTS"] ts with
  | some r => (readOne d kw r).map .dropSchema
  | none =>
  match kws [b!"DROP", b!"TABLE", b!"IF", b!"EXISTS"] ts with
  | some r =>
    (readName d kw r).bind fun (s, t, r) => if r = [] then some (.dropTable (s, t)) else none
  | none =>
  match kws [b!"CREATE", b!"TABLE"] ts with
  | some r => readCreateTable d kw r
  | none =>
  match kws [b!"ALTER", b!"TABLE"] ts with
  | some r => readAlterTable d kw r
  | none => (kws [b!"CREATE"] ts).bind fun r => (readIdx d kw false r).map .createIndex

/-- Reads a script; `kw` are the reserved words. -/
def readScript (d : Dialect) (kw : List Str) (s : Str) : Option (List Stmt) :=
  (lex d s).bind fun ts => (statements ts).mapM (readStmt d kw)

end DdlText
