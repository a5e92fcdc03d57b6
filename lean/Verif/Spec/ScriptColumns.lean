import Verif.Model.ScriptColumns

/-!
# Columns as they were defined
-/

namespace Sqddl.Scripts.ColumnSpec

/-- two lists of the same length whose entries belong together -/
def Each {A B : Type} (R : A → B → Prop) : List A → List B → Prop
  | [], [] => True
  | a :: l, b :: m => R a b ∧ Each R l m
  | _, _ => False

/-! ## Postgres -/

/-- the modifier that Postgres keeps for `numeric(p, s)` -/
def numericMod (p : Nat) (s : Int) : Int := p * 65536 + s % 2048 + 4

/-- the text of the expression that is kept for a column -/
def kept (c : PgColInfo) (a : PgCol) (text : Str) : Prop :=
  (∃ d ∈ c.attrdefs, d.adrelid = a.attrelid ∧ d.adnum = a.attnum ∧ text = c.expr d.adbin d.adrelid) ∨
  ((∀ d ∈ c.attrdefs, ¬ (d.adrelid = a.attrelid ∧ d.adnum = a.attnum)) ∧ text = [])

/-- `r` is the column `a` as it was defined. -/
structure PgColShown (c : PgColInfo) (n : PgNamespace) (t : PgClass) (a : PgCol) (r : Column) : Prop where
  schema : r.tableSchema = n.nspname
  table : r.tableName = t.relname
  name : r.columnName = a.attname
  /-- the type, if it is not a domain -/
  type : (∀ x ∈ c.types, x.oid = a.atttypid → x.typtype ≠ 'd') →
    r.columnType = c.formatType a.atttypid a.atttypmod ∧ r.domainName = []
  /-- the type that a domain stands for, with the modifier of the domain -/
  domain : ∀ x ∈ c.types, x.oid = a.atttypid → x.typtype = 'd' →
    r.columnType = c.formatType x.typbasetype x.typtypmod ∧ r.domainName = x.typname
  enum : r.isEnum = true ↔ ∃ x ∈ c.types, x.oid = a.atttypid ∧ x.typtype = 'e'
  /-- precision and scale, 0 if there are none -/
  numeric : ∀ p s : Nat, a.atttypid = 1700 → 1 ≤ p → p ≤ 1000 → s ≤ 1000 → a.atttypmod = numericMod p s →
    r.numericPrecision = Nat.toDigits 10 p ∧ r.numericScale = Nat.toDigits 10 s
  numericPlain : a.atttypid = 1700 → a.atttypmod = -1 → r.numericPrecision = b!"0" ∧ r.numericScale = b!"0"
  notNumeric : a.atttypid ≠ 1700 → r.numericPrecision = [] ∧ r.numericScale = []
  identityAlways : a.attidentity = 'a' → r.columnIdentity = b!"GENERATED ALWAYS AS IDENTITY"
  identityDefault : a.attidentity = 'd' → r.columnIdentity = b!"GENERATED BY DEFAULT AS IDENTITY"
  identityNone : a.attidentity = ' ' → r.columnIdentity = []
  notNull : r.isNotNull = a.attnotnull
  generated : a.attgenerated = 's' → r.generatedExprStored = true ∧ r.columnDefault = [] ∧ kept c a r.generatedExpr
  notGenerated : a.attgenerated = ' ' →
    r.generatedExprStored = false ∧ r.generatedExpr = [] ∧ kept c a r.columnDefault
  /-- the collation, if it is not the one that all columns have -/
  collation : ∀ k ∈ c.collations, k.oid = a.attcollation →
    r.collationName = (if k.name = b!"default" then [] else k.name)
  noCollation : (∀ k ∈ c.collations, k.oid ≠ a.attcollation) → r.collationName = []
  comment : ∀ text, c.description a.attrelid a.attnum = some text → r.comment = text
  noComment : c.description a.attrelid a.attnum = none → r.comment = []

/-- What Postgres guarantees for its catalog. -/
structure PgColValid (c : PgColInfo) : Prop where
  schemaIds : (c.namespaces.map (·.oid)).Nodup
  schemaNames : (c.namespaces.map (·.nspname)).Nodup
  tableIds : (c.classes.map (·.oid)).Nodup
  tableNames : (c.classes.map (fun t => (t.relnamespace, t.relname))).Nodup
  columnIds : (c.cols.map (fun a => (a.attrelid, a.attnum))).Nodup
  typeIds : (c.types.map (·.oid)).Nodup
  defaults : (c.attrdefs.map (fun d => (d.adrelid, d.adnum))).Nodup
  collationIds : (c.collations.map (·.oid)).Nodup
  /-- a domain stands for a type -/
  bases : ∀ x ∈ c.types, x.typtype = 'd' → ∃ b ∈ c.types, b.oid = x.typbasetype

/-- no domain has a modifier of its own, like the length of `varchar(10)` -/
def PlainDomains (c : PgColInfo) : Prop :=
  ∀ x ∈ c.types, x.typtype = 'd' → ∀ b ∈ c.types, b.oid = x.typbasetype → b.typtypmod = x.typtypmod

/-! ## MySQL -/

/-- a column; `onUpdate`: it has ON UPDATE CURRENT_TIMESTAMP with a number of digits; `expression`: its
default is an expression -/
structure MyColumn where
  name : Str
  type : Str
  length : Option Str
  precision : Option Str
  scale : Option Str
  autoIncrement : Bool
  notNull : Bool
  onUpdate : Option Nat
  generated : Option (Str × Bool)
  collation : Option Str
  default : Option Str
  expression : Bool
  invisible : Bool
  comment : Str

/-- a table or a view -/
structure MyTab where
  schema : Str
  name : Str
  type : Str
  columns : List MyColumn

/-- words with blanks between them -/
def words : List Str → Str
  | [] => []
  | [w] => w
  | w :: l => w ++ b!" " ++ words l

/-- what information_schema says of a column in `extra` -/
def extraOf (k : MyColumn) : Str :=
  words ((if k.autoIncrement then [b!"auto_increment"] else []) ++
    (if k.expression then [b!"DEFAULT_GENERATED"] else []) ++
    (match k.onUpdate with
      | none => []
      | some 0 => [b!"on update CURRENT_TIMESTAMP"]
      | some n => [b!"on update CURRENT_TIMESTAMP(" ++ Nat.toDigits 10 n ++ b!")"]) ++
    (match k.generated with
      | none => []
      | some (_, true) => [b!"STORED GENERATED"]
      | some (_, false) => [b!"VIRTUAL GENERATED"]) ++
    (if k.invisible then [b!"INVISIBLE"] else []))

/-- the row of a column -/
def myColRow (t : MyTab) (x : MyColumn × Nat) : MyCol :=
  ⟨t.schema, t.name, x.1.name, x.2, x.1.type, x.1.length, x.1.precision, x.1.scale, some (extraOf x.1),
    if x.1.notNull then b!"NO" else b!"YES", some ((x.1.generated.map (·.1)).getD []), x.1.collation, x.1.default,
    x.1.comment⟩

/-- the rows, in any order -/
structure MyColShows (db : List MyTab) (tables : List (Str × Str × Str)) (cols : List MyCol) : Prop where
  tables : tables.Perm (db.map fun t => (t.schema, t.name, t.type))
  cols : cols.Perm (db.flatMap fun t => (t.columns.zipIdx 1).map (myColRow t))

/-- What MySQL demands: a generated column has no default and is not updated, one with AUTO_INCREMENT has
neither. -/
structure MyColValid (db : List MyTab) : Prop where
  names : (db.map fun t => (t.schema, t.name)).Nodup
  generated : ∀ t ∈ db, ∀ k ∈ t.columns, k.generated ≠ none →
    k.autoIncrement = false ∧ k.expression = false ∧ k.onUpdate = none
  autoIncrement : ∀ t ∈ db, ∀ k ∈ t.columns, k.autoIncrement = true → k.expression = false ∧ k.onUpdate = none

/-- No column is invisible, and those with ON UPDATE have an expression as default (CURRENT_TIMESTAMP)
and no digits. -/
def PlainExtra (db : List MyTab) : Prop :=
  ∀ t ∈ db, ∀ k ∈ t.columns, k.invisible = false ∧ ∀ n, k.onUpdate = some n → n = 0 ∧ k.expression = true

/-- the column as it was defined; a collation that is that of the database is left out, and so is a
default if there is none -/
def myShownColumn (collation : Str) (t : MyTab) (k : MyColumn) : Column :=
  { tableSchema := t.schema, tableName := t.name, columnName := k.name, columnType := k.type
    characterLength := k.length.getD [], numericPrecision := k.precision.getD [], numericScale := k.scale.getD []
    isAutoincrement := k.autoIncrement
    isNotNull := k.notNull
    onUpdateCurrentTimestamp := k.onUpdate.isSome
    generatedExpr := (k.generated.map (·.1)).getD []
    generatedExprStored := (k.generated.map (·.2)).getD false
    collationName := if k.collation = some collation then [] else k.collation.getD []
    columnDefault := k.default.getD []
    comment := k.comment }

/-! ## SQL Server -/

/-- the type of a column: one of the server's, another name for one, or one written in .NET -/
inductive MsTy where
  | system (id : Nat) (name : Str)
  | alias (id : Nat) (name : Str) (base : Nat) (baseName : Str)
  | clr (id : Nat) (name : Str)

/-- system_type_id -/
def MsTy.sys : MsTy → Nat
  | .system id _ => id
  | .alias _ _ base _ => base
  | .clr _ _ => 240

/-- user_type_id -/
def MsTy.user : MsTy → Nat
  | .system id _ => id
  | .alias id _ _ _ => id
  | .clr id _ => id

/-- the name of the server's type that it is or stands for, or of the .NET type -/
def MsTy.base : MsTy → Str
  | .system _ n => n
  | .alias _ _ _ n => n
  | .clr _ n => n

/-- a column; `identity`: seed and increment; `computed`: expression and whether it is persisted -/
structure MsColumnDef where
  id : Nat
  name : Str
  type : MsTy
  maxlen : Option Str
  precision : Nat
  scale : Option Nat
  identity : Option (Str × Str)
  nullable : Bool
  computed : Option (Str × Bool)
  collation : Option Str
  default : Option Str

/-- a table -/
structure MsTabDef where
  id : Nat
  schema : Str
  name : Str
  columns : List MsColumnDef

/-- the row of a column -/
def msColRow (t : MsTabDef) (x : MsColumnDef × Nat) : MsCol :=
  ⟨t.id, x.1.id, x.1.name, x.2, x.1.type.sys, x.1.type.user, x.1.maxlen, x.1.precision, x.1.scale,
    x.1.identity.isSome, x.1.nullable, x.1.collation, x.1.default⟩

/-- the rows, in any order; `types` has the server's types by their numbers -/
structure MsColShows (db : List MsTabDef) (c : MsColInfo) : Prop where
  tables : c.tables.Perm (db.map fun t => ⟨t.id, t.schema, t.name⟩)
  cols : c.cols.Perm (db.flatMap fun t => (t.columns.zipIdx 1).map (msColRow t))
  identities : c.identities.Perm (db.flatMap fun t => t.columns.filterMap fun k =>
    k.identity.map fun i => (t.id, k.id, i.1, i.2))
  computed : c.computed.Perm (db.flatMap fun t => t.columns.filterMap fun k =>
    k.computed.map fun g => (t.id, k.id, g.1, g.2))
  types : ∀ t ∈ db, ∀ k ∈ t.columns, (∀ id n, k.type = .system id n → ⟨id, n⟩ ∈ c.types) ∧
    (∀ id n b m, k.type = .alias id n b m → ⟨b, m⟩ ∈ c.types) ∧ (∀ id n, k.type = .clr id n → ⟨id, n⟩ ∈ c.types)

/-- What SQL Server demands: numbers and names are unique, and no type has the number 240, which is the
system_type_id of all .NET types. -/
structure MsColValid (db : List MsTabDef) (c : MsColInfo) : Prop where
  ids : (db.map (·.id)).Nodup
  names : (db.map fun t => (t.schema, t.name)).Nodup
  columnIds : ∀ t ∈ db, (t.columns.map (·.id)).Nodup
  typeIds : (c.types.map (·.oid)).Nodup
  no240 : ∀ x ∈ c.types, x.oid ≠ 240

/-- no column has a .NET type, like hierarchyid or geometry -/
def NoClr (db : List MsTabDef) : Prop := ∀ t ∈ db, ∀ k ∈ t.columns, ∀ id n, k.type ≠ .clr id n

/-- the kinds of numbers that have a precision: tinyint, smallint, int, real, money, float, decimal,
numeric, smallmoney, bigint -/
def numberTypes : List Nat := [48, 52, 56, 59, 60, 62, 106, 108, 122, 127]

/-- dates and times: date, time, datetime2, datetimeoffset, smalldatetime, datetime -/
def timeTypes : List Nat := [40, 41, 42, 43, 58, 61]

/-- the column as it was defined -/
def msShownColumn (collation : Str) (t : MsTabDef) (k : MsColumnDef) : Column :=
  { tableSchema := t.schema, tableName := t.name, columnName := k.name, columnType := k.type.base
    characterLength := k.maxlen.getD b!"0"
    numericPrecision := if k.type.sys ∈ numberTypes then Nat.toDigits 10 k.precision else b!"0"
    numericScale := if k.type.sys ∈ timeTypes then b!"0" else Nat.toDigits 10 (k.scale.getD 0)
    columnIdentity := match k.identity with
      | none => []
      | some (s, i) => if s = b!"1" ∧ i = b!"1" then b!"IDENTITY" else b!"IDENTITY(" ++ s ++ b!", " ++ i ++ b!")"
    isNotNull := !k.nullable
    generatedExpr := (k.computed.map (·.1)).getD []
    generatedExprStored := (k.computed.map (·.2)).getD false
    collationName := if k.collation = some collation then [] else k.collation.getD []
    columnDefault := k.default.getD [] }

end Sqddl.Scripts.ColumnSpec
