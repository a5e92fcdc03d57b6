import Verif.Spec.DdlText
import Verif.Spec.Fragment
import Verif.Model.Catalog

/-!
# What the objects of a catalog are in DDL

Only the record types of the catalog are taken from the model.  `colOf` is the column definition that
a catalog column stands for; `ColumnOk` says which columns can be expressed in the grammar of
Verif.Spec.DdlText.
-/

namespace DdlText
open SqlSpec Sqddl

/-! ## Conditions on texts -/

/-- Brackets match, there is no semicolon, and no comma outside of brackets; `n` brackets are open
at the beginning. -/
def flat : Nat → List Tok → Bool
  | n, [] => n == 0
  | n, t :: r =>
    t ≠ .punct ';' && !(t = .punct ',' && n = 0) && !(t = .punct ')' && n = 0) && flat (deeper n t) r

/-- Brackets match, and there is no semicolon. -/
def bal : Nat → List Tok → Bool
  | n, [] => n == 0
  | n, t :: r => t ≠ .punct ';' && !(t = .punct ')' && n = 0) && bal (deeper n t) r

/-- There is no word of `ks` outside of brackets. -/
def quiet (ks : List Str) : Nat → List Tok → Bool
  | _, [] => true
  | n, t :: r => !(n = 0 && ks.any (fun k => isKw k t)) && quiet ks (deeper n t) r

/-- The tokens of a text. -/
def toks (d : Dialect) (s : Str) : List Tok := (lex d s).getD []

/-- A text that is a part of a definition: its brackets match, it has no comma outside of brackets,
and it contains none of the words that begin another clause. -/
structure ClauseText (d : Dialect) (s : Str) : Prop where
  fragment : Fragment d s
  flat : flat 0 (toks d s)
  quiet : quiet stops 0 (toks d s)

/-- A text that is an expression: its brackets match.  If it begins with a bracket and ends with one,
they belong together, and such brackets have no white space around them. -/
structure ExprText (d : Dialect) (s : Str) : Prop where
  fragment : Fragment d s
  bal : bal 0 (toks d s)
  brackets : (s.head? = some '(' ∧ s.getLast? = some ')') ↔
    ∃ i, inBrackets (toks d s) = some (i, [])

/-- The tokens of an expression without the brackets around it. -/
def exprToks (d : Dialect) (s : Str) : List Tok :=
  match inBrackets (toks d s) with
  | some (i, []) => i
  | _ => toks d s

/-! ## Columns -/

/-- The rules as they are written in the catalog; no rule is NO ACTION. -/
def ruleOf (r : Str) : Option Rule :=
  [(([] : Str), Rule.noAction), (b!"NO ACTION", .noAction), (b!"RESTRICT", .restrict),
   (b!"CASCADE", .cascade), (b!"SET NULL", .setNull), (b!"SET DEFAULT", .setDefault)].lookup r

/-- The rule; see `ruleOf`. -/
def ruleD (r : Str) : Rule := (ruleOf r).getD .noAction

/-- The identity clauses that a dialect has. -/
def identities : Dialect → List (List Tok)
  | .postgres => [[b!"GENERATED", b!"ALWAYS", b!"AS", b!"IDENTITY"].map .word,
      [b!"GENERATED", b!"BY", b!"DEFAULT", b!"AS", b!"IDENTITY"].map .word]
  | .sqlserver => [[.word b!"IDENTITY"]]
  | _ => []

/-- On SQL Server a generated column has no type and no NOT NULL. -/
def computed (d : Dialect) (c : Column) : Bool := d = .sqlserver && c.generatedExpr ≠ []

/-- The table that a column references. -/
def refOf (c : Column) : Option Ref :=
  if c.referencesTable ≠ [] ∧ c.referencesColumn ≠ [] then
    some ⟨(if c.referencesSchema = [] ∨ c.referencesSchema = c.tableSchema then none
        else some c.referencesSchema, c.referencesTable), [c.referencesColumn],
      none, ruleD c.updateRule, ruleD c.deleteRule⟩
  else none

/-- The dialect can defer constraints. -/
def defers (d : Dialect) : Bool := d = .sqlite || d = .postgres

/-- The column definition that a catalog column stands for.  `level`: constraints of one column are
part of its definition; on SQLite a primary key always is.  A collation that is the default of the
database is not mentioned. -/
def colOf (d : Dialect) (coll : Str) (level : Bool) (c : Column) : Col where
  name := c.columnName
  type :=
    if c.domainName ≠ [] then (toks d c.domainName).map foldTok
    else if c.isEnum || !computed d c then (toks d c.columnType).map foldTok
    else []
  primary := c.isPrimaryKey && (level || d = .sqlite)
  autoincrement := c.isAutoincrement && (d = .sqlite || d = .mysql)
  notNull := c.isNotNull && !computed d c
  unique := c.isUnique && level
  identity :=
    if c.columnIdentity ≠ [] && (d = .postgres || d = .sqlserver) then some (toks d c.columnIdentity)
    else none
  default := if c.columnDefault = [] then none else some (toks d c.columnDefault)
  onUpdateNow := c.onUpdateCurrentTimestamp && d = .mysql
  collation :=
    if c.collationName = [] ∨ c.collationName = coll then none
    else some (if d = .postgres then .quoted c.collationName else .word c.collationName)
  generated :=
    if c.generatedExpr = [] then none else some (exprToks d c.generatedExpr, c.generatedExprStored)
  ref := if level then refOf c else none
  deferrable := level && (refOf c).isSome && c.isDeferrable && defers d
  initiallyDeferred := level && (refOf c).isSome && c.isDeferrable && defers d &&
    c.isInitiallyDeferred

/-- A catalog column that can be expressed. -/
structure ColumnOk (d : Dialect) (coll : Str) (level : Bool) (c : Column) : Prop where
  dialect : d ≠ .oracle ∧ d ≠ .other
  name : PlainName d c.columnName
  /-- names of domains and enums are any text; other types are words, numbers and brackets -/
  domain : c.domainName ≠ [] → ClauseText d c.domainName
  enum : c.isEnum = true → ClauseText d c.columnType
  type : c.domainName = [] → c.isEnum = false → c.columnType.all (fun x => wordChar x ||
    Go.isSpace x || x == '.' || x == ',' || x == '(' || x == ')' ||
      (d ≠ .sqlserver && (x == '[' || x == ']'))) = true ∧
    flat 0 (toks d c.columnType) ∧ quiet stops 0 (toks d c.columnType)
  identity : c.columnIdentity ≠ [] → d = .postgres ∨ d = .sqlserver →
    toks d c.columnIdentity ∈ identities d ∧ Fragment d c.columnIdentity
  default : ClauseText d c.columnDefault
  collation : if d = .postgres then ¬ HasInnerPair '"' c.collationName
    else c.collationName.all wordChar = true
  generated : c.generatedExpr ≠ [] → ExprText d c.generatedExpr
  /-- SQLite and Postgres: only stored columns are written -/
  stored : c.generatedExpr ≠ [] → d = .sqlite ∨ d = .postgres → c.generatedExprStored = true
  refSchema : c.referencesSchema ≠ [] → PlainName d c.referencesSchema
  refTable : c.referencesTable ≠ [] → PlainName d c.referencesTable
  refColumn : c.referencesColumn ≠ [] → PlainName d c.referencesColumn
  updateRule : (ruleOf c.updateRule).isSome
  deleteRule : (ruleOf c.deleteRule).isSome
  allowed : (colOf d coll level c).allowed d

/-! ## Constraints -/

/-- The schema in which a name without schema is looked up: MySQL and SQLite take that of the table
that is created or altered. -/
def implicitSchema (d : Dialect) (cur owner : Str) : Str :=
  if (d = .mysql ∨ d = .sqlite) ∧ owner ≠ [] then owner else cur

/-- The full name of the object that a name denotes. -/
def resolve (d : Dialect) (cur owner : Str) (n : Name) : Name :=
  (some (n.1.getD (implicitSchema d cur owner)), n.2)

/-- The constraint with the full name of the table that it references; `owner` is the schema of its
table. -/
def Con.resolve (d : Dialect) (cur owner : Str) (c : Con) : Con :=
  { c with kind := match c.kind with
      | .foreign cols ref => .foreign cols { ref with table := DdlText.resolve d cur owner ref.table }
      | k => k }

/-- Pairs of elements and operators of an EXCLUDE constraint. -/
def elemsOf (d : Dialect) : List Str → List Str → List (List Tok × List Tok)
  | [], _ => []
  | c :: cs, ops => (toks d c, toks d (ops.headD [])) :: elemsOf d cs ops.tail

/-- The kind of a constraint. -/
def kindOf (d : Dialect) (cur : Str) (c : Constraint) : ConKind :=
  if c.constraintType = b!"PRIMARY KEY" then .primary c.columns
  else if c.constraintType = b!"UNIQUE" then .unique c.columns
  else if c.constraintType = b!"FOREIGN KEY" then
    .foreign c.columns ⟨(some (if c.referencesSchema = [] then cur else c.referencesSchema),
      c.referencesTable), c.referencesColumns,
      if c.matchOption = [] then none else some (Go.toLower (c.matchOption.drop 6)),
      ruleD c.updateRule, ruleD c.deleteRule⟩
  else if c.constraintType = b!"CHECK" then .check (toks d c.checkExpr)
  else .exclude (if c.exclusionIndexType = [] then none else some (Go.toLower c.exclusionIndexType))
    (elemsOf d c.columns c.exclusionOperators)
    (if c.exclusionPredicate = [] then none else some (toks d c.exclusionPredicate))

/-- The constraint that a catalog constraint stands for.  A primary key of MySQL has no name. -/
def conOf (d : Dialect) (cur : Str) (c : Constraint) : Con where
  name := if c.constraintName = [] ∨ d = .mysql ∧ c.constraintType = b!"PRIMARY KEY" then none
    else some c.constraintName
  kind := kindOf d cur c
  deferrable := c.isDeferrable && defers d
  initiallyDeferred := c.isDeferrable && defers d && c.isInitiallyDeferred
  notValid := c.isNotValid

/-- A foreign key that can be expressed.  On SQLite a table references tables of its own schema. -/
structure ForeignOk (d : Dialect) (cur : Str) (c : Constraint) : Prop where
  schema : c.referencesSchema ≠ [] → PlainName d c.referencesSchema
  current : PlainName d cur
  table : PlainName d c.referencesTable
  some : c.referencesColumns ≠ []
  columns : ∀ x ∈ c.referencesColumns, PlainName d x
  updateRule : (ruleOf c.updateRule).isSome
  deleteRule : (ruleOf c.deleteRule).isSome
  matching : c.matchOption = []
  sqlite : d = .sqlite → (c.referencesSchema = [] ∨ c.referencesSchema = cur) ∧
    (c.tableSchema = [] ∨ c.tableSchema = cur)

/-- An EXCLUDE constraint that can be expressed. -/
structure ExcludeOk (d : Dialect) (c : Constraint) : Prop where
  postgres : d = .postgres
  some : c.columns ≠ []
  method : c.exclusionIndexType.all wordChar = true
  elems : ∀ x ∈ c.columns, Fragment d x ∧ flat 0 (toks d x) ∧ quiet [b!"WITH"] 0 (toks d x)
  operators : ∀ x ∈ c.exclusionOperators, Fragment d x ∧ flat 0 (toks d x)
  pred : Fragment d c.exclusionPredicate ∧ bal 0 (toks d c.exclusionPredicate)

/-- A catalog constraint that can be expressed. -/
structure ConstraintOk (d : Dialect) (cur : Str) (c : Constraint) : Prop where
  dialect : d ≠ .oracle ∧ d ≠ .other
  name : c.constraintName ≠ [] → PlainName d c.constraintName
  type : c.constraintType ∈
    [b!"PRIMARY KEY", b!"UNIQUE", b!"FOREIGN KEY", b!"CHECK", b!"EXCLUDE"]
  columns : c.constraintType ∈ [b!"PRIMARY KEY", b!"UNIQUE", b!"FOREIGN KEY"] →
    c.columns ≠ [] ∧ ∀ x ∈ c.columns, PlainName d x
  foreign : c.constraintType = b!"FOREIGN KEY" → ForeignOk d cur c
  check : c.constraintType = b!"CHECK" →
    Fragment d c.checkExpr ∧ bal 0 (toks d c.checkExpr) ∧ c.isDeferrable = false
  exclude : c.constraintType = b!"EXCLUDE" → ExcludeOk d c
  valid : c.isNotValid = false

/-! ## Indexes -/

/-- The text is in brackets: an expression instead of a column. -/
def isExpr (s : Str) : Bool := s.head? == some '(' && s.getLast? == some ')'

/-- The columns of an index with their directions. -/
def idxColsOf (d : Dialect) : List Str → List Bool → List IdxCol
  | [], _ => []
  | c :: cs, ds =>
    (if isExpr c then .expr (exprToks d c) (ds.headD false) else .column c (ds.headD false)) ::
    idxColsOf d cs ds.tail

/-- FULLTEXT and SPATIAL indexes of MySQL. -/
def special (d : Dialect) (x : Index) : Bool :=
  d = .mysql && (Go.toLower x.indexType = b!"fulltext" || Go.toLower x.indexType = b!"spatial")

/-- The index that a catalog index stands for.  BTREE is the default method. -/
def idxOf (d : Dialect) (cur : Str) (conc inline : Bool) (x : Index) : Idx where
  unique := x.isUnique
  kind := if special d x then some (Go.toLower x.indexType) else none
  name := x.indexName
  concurrently := conc && d = .postgres
  table := if inline then none
    else some (if x.tableSchema = [] ∨ x.tableSchema = cur then none else some x.tableSchema,
      x.tableName)
  method :=
    if x.indexType ≠ [] && (d = .mysql || d = .postgres) && Go.toLower x.indexType ≠ b!"btree" &&
      !special d x then some (Go.toLower x.indexType) else none
  cols := idxColsOf d x.columns x.descending
  incl := if d = .postgres ∨ d = .sqlserver then x.includeColumns else []
  pred := if d = .mysql then [] else toks d x.predicate

/-- A catalog index that can be expressed.  Inside of ALTER TABLE an index has no method, SPATIAL
indexes are not supported. -/
structure IndexOk (d : Dialect) (inline : Bool) (x : Index) : Prop where
  dialect : d ≠ .oracle ∧ d ≠ .other
  name : PlainName d x.indexName
  schema : x.tableSchema ≠ [] → PlainName d x.tableSchema
  table : PlainName d x.tableName
  type : x.indexType.all wordChar = true
  spatial : d = .mysql → Go.toLower x.indexType ≠ b!"spatial" ∧ Go.toLower x.indexName ≠ b!"spatial"
  fulltext : special d x = true → x.isUnique = false
  inline : inline = true → d = .mysql ∧
    Go.toLower x.indexType ∈ [([] : Str), b!"btree", b!"fulltext"]
  some : x.columns ≠ []
  columns : ∀ c ∈ x.columns, if isExpr c then ExprText d c else PlainName d c
  incl : ∀ c ∈ x.includeColumns, PlainName d c
  pred : Fragment d x.predicate ∧ bal 0 (toks d x.predicate)

end DdlText
