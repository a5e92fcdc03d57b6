import Verif.Model.Catalog
import Verif.Model.Diff
import Verif.Model.Modifier
import Verif.Model.Dsn

/-!
# Structs for the tables of a catalog

/repo/ddl/table_structs.go, and the way of the structs through the text of a Go file: MarshalText
writes them (table_structs.go:383-435) and VisitStruct of /repo/ddl/struct_parser.go:56-131 reads
them.
-/

namespace Sqddl.Structs
open Go

/-- /repo/ddl/ddl.go:27 -/
def DEFAULT_IDENTITY : Str := b!"GENERATED BY DEFAULT AS IDENTITY"
/-- /repo/ddl/ddl.go:28 -/
def ALWAYS_IDENTITY : Str := b!"GENERATED ALWAYS AS IDENTITY"
/-- /repo/ddl/ddl.go:29 -/
def IDENTITY : Str := b!"IDENTITY"
/-- /repo/ddl/ddl.go:31 -/
def RESTRICT : Str := b!"RESTRICT"
/-- /repo/ddl/ddl.go:32 -/
def CASCADE : Str := b!"CASCADE"
/-- /repo/ddl/ddl.go:34 -/
def SET_NULL : Str := b!"SET NULL"
/-- /repo/ddl/ddl.go:35 -/
def SET_DEFAULT : Str := b!"SET DEFAULT"

/-- The dialects of /repo/ddl/ddl.go:39-45. -/
def dialectOf (s : Str) : Dialect :=
  if s = b!"sqlite" then .sqlite
  else if s = b!"postgres" then .postgres
  else if s = b!"mysql" then .mysql
  else if s = b!"sqlserver" then .sqlserver
  else if s = b!"oracle" then .oracle
  else .other

/-- /repo/ddl/table_structs.go:24-41 `type StructField struct`, without the position in the source -/
structure StructField where
  name : Str := []
  type : Str := []
  nameTag : Str := []
  modifiers : List Modifier := []

/-- /repo/ddl/table_structs.go:15-21 `type TableStruct struct` -/
structure TableStruct where
  name : Str := []
  fields : List StructField := []

/-- /repo/ddl/table_structs.go:470-483 `needsQuoting`.  The rune loop is run over bytes: bytes of
longer sequences are not among the characters looked for. -/
def needsQuoting (s : Str) : Bool :=
  s.head?.any isDigit || s.any fun c => !(c == '_' || isDigit c || ('a' ≤ c && c ≤ 'z'))

/-- strings.Count(s, "_") -/
def underscores (s : Str) : Nat := s.count '_'

/-- /repo/ddl/table_structs.go:485-521 `isSimpleIndex` -/
def isSimpleIndex (x : Index) : Bool :=
  !x.columns.isEmpty && x.includeColumns.isEmpty && x.predicate.isEmpty &&
  !(x.descending.any id) &&
  !(x.opclasses.any fun o => decide (underscores o > 1)) &&
  !(x.columns.any fun c => hasPrefix c b!"(") &&
  !(contains b!" WHERE " (toUpper x.sql)) &&
  !(contains b!" DESC" (toUpper x.sql)) &&
  !(contains b!" INCLUDE " (toUpper x.sql))

/-- /repo/ddl/table_structs.go:437-468 `getFieldType`; `none` is a panic of normalizeColumnType. -/
def getFieldType (d : Dialect) (c : Column) : Option Str :=
  if c.isEnum then some b!"sq.EnumField"
  else if hasSuffix c.columnType b!"[]" then some b!"sq.ArrayField"
  else (normalizeColumnType d c.columnType).map fun r =>
    if r.1 = b!"TINYINT" ∧ r.2.1 = b!"1" then b!"sq.BooleanField"
    else if r.1 = b!"BINARY" ∧ r.2.1 = b!"16" then b!"sq.UUIDField"
    else if r.1 ∈ [b!"BYTEA", b!"BINARY", b!"VARBINARY", b!"TINYBLOB", b!"BLOB", b!"MEDIUMBLOB",
      b!"LONGBLOB", b!"VARBIT"] then b!"sq.BinaryField"
    else if r.1 ∈ [b!"BOOLEAN", b!"BIT"] then b!"sq.BooleanField"
    else if r.1 ∈ [b!"JSON", b!"JSONB"] then b!"sq.JSONField"
    else if r.1 ∈ [b!"TINYINT", b!"SMALLINT", b!"MEDIUMINT", b!"INT", b!"INTEGER", b!"BIGINT",
      b!"NUMERIC", b!"FLOAT", b!"REAL", b!"DOUBLE PRECISION"] then b!"sq.NumberField"
    else if r.1 ∈ [b!"TINYTEXT", b!"TEXT", b!"MEDIUMTEXT", b!"LONGTEXT", b!"CHAR", b!"VARCHAR",
      b!"NVARCHAR"] then b!"sq.StringField"
    else if r.1 ∈ [b!"DATE", b!"TIME", b!"TIMETZ", b!"DATETIME", b!"DATETIME2", b!"SMALLDATETIME",
      b!"DATETIMEOFFSET", b!"TIMESTAMP", b!"TIMESTAMPTZ"] then b!"sq.TimeField"
    else if r.1 ∈ [b!"UUID", b!"UNIQUEIDENTIFIER"] then b!"sq.UUIDField"
    else b!"sq.AnyField"

/-- /repo/ddl/table_structs.go:195-264: the column type for which no modifier is written, by type
of the field; the empty string for `sq.AnyField` and `sq.ArrayField`. -/
def defaultColumnType (d : Dialect) (fieldType : Str) : Str :=
  if fieldType = b!"sq.BinaryField" then
    match d with
    | .sqlite => b!"BLOB"
    | .postgres => b!"BYTEA"
    | .mysql => b!"MEDIUMBLOB"
    | .sqlserver => b!"VARBINARY(MAX)"
    | _ => b!"BINARY"
  else if fieldType = b!"sq.BooleanField" then
    match d with
    | .sqlserver => b!"BIT"
    | _ => b!"BOOLEAN"
  else if fieldType = b!"sq.EnumField" ∨ fieldType = b!"sq.StringField" then
    match d with
    | .sqlite | .postgres => b!"TEXT"
    | .sqlserver => b!"NVARCHAR(255)"
    | _ => b!"VARCHAR(255)"
  else if fieldType = b!"sq.JSONField" then
    match d with
    | .sqlite | .mysql => b!"JSON"
    | .postgres => b!"JSONB"
    | .sqlserver => b!"NVARCHAR(MAX)"
    | _ => b!"VARCHAR(255)"
  else if fieldType = b!"sq.NumberField" then b!"INT"
  else if fieldType = b!"sq.TimeField" then
    match d with
    | .postgres => b!"TIMESTAMPTZ"
    | .sqlserver => b!"DATETIMEOFFSET"
    | _ => b!"TIMESTAMP"
  else if fieldType = b!"sq.UUIDField" then
    match d with
    | .sqlite | .postgres => b!"UUID"
    | _ => b!"BINARY(16)"
  else []

/-- strings.ReplaceAll(s, " ", "_") -/
def noSpace (s : Str) : Str := s.map fun c => if c = ' ' then '_' else c

/-- `Modifier{Name: name, RawValue: raw}` -/
def raw (name value : Str) : Modifier := .mk [] name value [] []

/-- `Modifier{Name: name, Value: value}` -/
def val (name value : Str) : Modifier := .mk [] name [] value []

/-- `Modifier{Name: name}` -/
def flag (name : Str) : Modifier := .mk [] name [] [] []

/-- /repo/ddl/table_structs.go:114-133: the table and columns referenced by a foreign key; the
columns are left out if they are equal to those of the key. -/
def referencesText (cur : Str) (k : Constraint) : Str :=
  (if k.referencesSchema ≠ [] ∧ k.referencesSchema ≠ cur then k.referencesSchema ++ b!"." else []) ++
  k.referencesTable ++
  (if k.columns.isPrefixOf k.referencesColumns then []
   else b!"." ++ join b!"," k.referencesColumns)

/-- /repo/ddl/table_structs.go:134-147: `onupdate` and `ondelete` -/
def ruleModifier (name rule : Str) : List Modifier :=
  if rule ≠ [] ∧ rule ≠ NO_ACTION then [val name (toLower (rule.filter (· ≠ ' ')))] else []

/-- /repo/ddl/table_structs.go:151-158 -/
def deferModifier (k : Constraint) : List Modifier :=
  if k.isDeferrable then
    [flag (if k.isInitiallyDeferred then b!"deferred" else b!"deferrable")]
  else []

/-- /repo/ddl/table_structs.go:97-160: the modifier of a constraint; `none` for other kinds of
constraints. -/
def constraintModifier (cur : Str) (k : Constraint) : Option Modifier :=
  if k.constraintType = PRIMARY_KEY then
    some (.mk [] b!"primarykey" [] (join b!"," k.columns) (deferModifier k))
  else if k.constraintType = UNIQUE then
    some (.mk [] b!"unique" [] (join b!"," k.columns) (deferModifier k))
  else if k.constraintType = FOREIGN_KEY then
    some (.mk [] b!"foreignkey" [] (join b!"," k.columns)
      (raw b!"references" (referencesText cur k) :: ruleModifier b!"onupdate" k.updateRule ++
        ruleModifier b!"ondelete" k.deleteRule ++ deferModifier k))
  else none

/-- `constraintModifierList` before the indexes are added: /repo/ddl/table_structs.go:97-160 -/
def keyModifiers (cur : Str) (t : Table) : List Modifier :=
  (t.constraints.filter fun k => !k.ignore).filterMap (constraintModifier cur)

/-- /repo/ddl/table_structs.go:161-175: the modifier of an index -/
def indexModifier (x : Index) : Modifier :=
  .mk [] b!"index" [] (join b!"," x.columns)
    ((if x.isUnique then [flag b!"unique"] else []) ++
     (if x.indexType ≠ [] ∧ toUpper x.indexType ≠ b!"BTREE" then [raw b!"using" x.indexType] else []))

/-- `indexModifierList`: /repo/ddl/table_structs.go:161-183 -/
def indexModifiers (t : Table) : List Modifier :=
  (t.indexes.filter fun x => !x.ignore && isSimpleIndex x).map indexModifier

/-- The maps of /repo/ddl/table_structs.go:92-95 from the names of columns to modifiers: the position
of the last modifier assigned. -/
def keyPos (ms : List Modifier) (name value : Str) : Option Nat :=
  ((ms.zipIdx.reverse).find? fun e => e.1.name == name && e.1.value == value).map (·.2)

/-- `primarykeyModifier`: the position of the last primary key. -/
def pkeyPos (ms : List Modifier) : Option Nat :=
  ((ms.zipIdx.reverse).find? fun e => e.1.name == b!"primarykey").map (·.2)

/-- A modifier with `Value` set to the empty string. -/
def noValue (m : Modifier) : Modifier := .mk m.dialects m.name m.raw [] m.subs

/-- /repo/ddl/table_structs.go:176-181: the indexes on the columns of a foreign key become
submodifiers of the foreign key. -/
def withIndexes (ks is : List Modifier) : List Modifier :=
  ks.zipIdx.map fun e =>
    if e.1.name = b!"foreignkey" ∧ keyPos ks b!"foreignkey" e.1.value = some e.2 then
      .mk e.1.dialects e.1.name e.1.raw e.1.value
        (e.1.subs ++ (is.filter fun m => m.value == e.1.value).map noValue)
    else e.1

/-- The modifier at a position of a list. -/
def atPos (ms : List Modifier) (i : Option Nat) : List Modifier :=
  (i.bind fun i => ms[i]?).toList

/-- /repo/ddl/table_structs.go:293-301: the foreign key of one column -/
def asReferences (m : Modifier) : Modifier :=
  .mk m.dialects b!"references" m.raw ((m.subs.head?.map (·.raw)).getD []) m.subs.tail

/-- /repo/ddl/table_structs.go:269-272: `isSQLiteRowid` -/
def isRowid (d : Dialect) (ks : List Modifier) (c : Column) : Bool :=
  d == .sqlite && (atPos ks (pkeyPos ks)).any (fun m => m.value == c.columnName) &&
  toUpper c.columnType == b!"INTEGER"

/-- /repo/ddl/table_structs.go:265-276: `type` -/
def typeModifier (d : Dialect) (ks : List Modifier) (fieldType : Str) (c : Column) : List Modifier :=
  if c.domainName ≠ [] then [raw b!"type" c.domainName]
  else if c.columnType ≠ [] ∧ c.columnType ≠ defaultColumnType d fieldType ∧ !isRowid d ks c then
    [raw b!"type" c.columnType]
  else []

/-- /repo/ddl/table_structs.go:302-310: `autoincrement` -/
def autoModifier (d : Dialect) (c : Column) : List Modifier :=
  if c.isAutoincrement then
    match d with
    | .sqlite => [flag b!"autoincrement"]
    | .mysql => [flag b!"auto_increment"]
    | _ => []
  else []

/-- /repo/ddl/table_structs.go:311-325: `identity` -/
def identityModifier (d : Dialect) (c : Column) : List Modifier :=
  match d with
  | .postgres =>
    if c.columnIdentity = DEFAULT_IDENTITY then [flag b!"identity"]
    else if c.columnIdentity = ALWAYS_IDENTITY then [flag b!"alwaysidentity"]
    else []
  | .sqlserver => if c.columnIdentity = IDENTITY then [flag b!"identity"] else []
  | _ => []

/-- /repo/ddl/table_structs.go:326-329: `default`; a default with a backquote is left out. -/
def defaultModifier (c : Column) : List Modifier :=
  if c.columnDefault ≠ [] ∧ '`' ∉ c.columnDefault then
    [raw b!"default" (unwrapBrackets c.columnDefault)]
  else []

/-- The modifiers of a column: /repo/ddl/table_structs.go:265-349.  `ks` are the modifiers of the
constraints with the indexes of foreign keys, `is` those of the indexes.  (An index on one column
that is not on a foreign key is written at the column.  Two columns of the same name, for which only
the first would get it, are not modelled.) -/
def columnModifiers (d : Dialect) (defaultCollation : Str) (ks is : List Modifier) (fieldType : Str)
    (c : Column) : List Modifier :=
  typeModifier d ks fieldType c ++
  (if c.isNotNull then [flag b!"notnull"] else []) ++
  ((atPos ks (pkeyPos ks)).filter fun m => m.value == c.columnName).map noValue ++
  (atPos ks (keyPos ks b!"unique" c.columnName)).map noValue ++
  (atPos ks (keyPos ks b!"foreignkey" c.columnName)).map asReferences ++
  autoModifier d c ++
  identityModifier d c ++
  defaultModifier c ++
  (if c.onUpdateCurrentTimestamp then [flag b!"onupdatecurrenttimestamp"] else []) ++
  (if c.collationName ≠ [] ∧ c.collationName ≠ defaultCollation then
    [raw b!"collate" c.collationName] else []) ++
  (if keyPos ks b!"foreignkey" c.columnName = none then
    (atPos is (keyPos is b!"index" c.columnName)).map noValue else []) ++
  (if c.isGenerated ∨ c.generatedExpr ≠ [] then [flag b!"generated"] else [])

/-- /repo/ddl/table_structs.go:184-194, 265-350: the field of a column; `none` is a panic. -/
def columnField (d : Dialect) (defaultCollation : Str) (ks is : List Modifier) (c : Column) :
    Option StructField :=
  (getFieldType d c).map fun ty =>
    { name := toUpper (noSpace c.columnName)
      type := ty
      nameTag := if needsQuoting c.columnName then c.columnName else []
      modifiers := columnModifiers d defaultCollation ks is ty c }

/-- A field `_ struct{}` with one modifier: /repo/ddl/table_structs.go:360-364, 370-374 -/
def blankField (m : Modifier) : StructField :=
  { name := b!"_", type := b!"struct{}", modifiers := [m] }

/-- /repo/ddl/table_structs.go:356-365: the constraints that are not written elsewhere -/
def restKeys (cols : List Str) (ks : List Modifier) : List Modifier :=
  (ks.zipIdx.filter fun e =>
    !(if e.1.name = b!"primarykey" then decide (pkeyPos ks = some e.2)
      else decide (keyPos ks e.1.name e.1.value = some e.2 ∧ e.1.value ∈ cols))).map (·.1)

/-- /repo/ddl/table_structs.go:366-375: the indexes that are not written elsewhere -/
def restIndexes (cols : List Str) (ks is : List Modifier) : List Modifier :=
  (is.zipIdx.filter fun e =>
    decide (keyPos ks b!"foreignkey" e.1.value = none) &&
    !decide (keyPos is b!"index" e.1.value = some e.2 ∧ e.1.value ∈ cols)).map (·.1)

/-- /repo/ddl/table_structs.go:80-86: the name tag of the first field -/
def tableTag (cur : Str) (t : Table) : Str :=
  if (t.tableSchema ≠ [] ∧ t.tableSchema ≠ cur) ∨ needsQuoting t.tableName then
    if t.tableSchema ≠ [] then t.tableSchema ++ b!"." ++ t.tableName else t.tableName
  else []

/-- /repo/ddl/table_structs.go:87-89, 352-355: the modifiers of the first field.  A primary key that
is not written at a column replaces `virtual`. -/
def tableModifiers (d : Dialect) (cols : List Str) (ks : List Modifier) (t : Table) : List Modifier :=
  let pk := (atPos ks (pkeyPos ks)).filter fun m => !(cols.contains m.value)
  if pk ≠ [] then pk
  else if d = .sqlite ∧ isVirtualTable t then [flag b!"virtual"]
  else []

/-- /repo/ddl/table_structs.go:73-377: the struct of a table; `none` is a panic. -/
def tableStruct (cat : Catalog) (t : Table) : Option TableStruct :=
  let d := dialectOf cat.dialect
  let is := indexModifiers t
  let ks := withIndexes (keyModifiers cat.currentSchema t) is
  let columns := t.columns.filter fun c => !c.ignore
  let cols := columns.map (·.columnName)
  (columns.mapM (columnField d cat.defaultCollation ks is)).map fun fields =>
    { name := toUpper (noSpace t.tableName)
      fields :=
        { type := b!"sq.TableStruct", nameTag := tableTag cat.currentSchema t,
          modifiers := tableModifiers d cols ks t } ::
        fields ++ (restKeys cols ks ++ restIndexes cols ks is).map blankField }

/-- /repo/ddl/table_structs.go:68-380 `ReadCatalog`: the structs of all tables of all schemas (also
of those that are ignored); `none` is a panic. -/
def readCatalog (cat : Catalog) : Option (List TableStruct) :=
  (cat.schemas.flatMap (·.tables)).mapM (tableStruct cat)

/-! ## The text of the structs -/

/-- A letter or underscore. -/
def isLetter (c : Char) : Bool := c == '_' || ('a' ≤ c && c ≤ 'z') || ('A' ≤ c && c ≤ 'Z')

/-- An identifier of Go, restricted to ASCII (Go allows other letters, too). -/
def isIdent (s : Str) : Bool := s.head?.any isLetter && s.all fun c => isLetter c || isDigit c

/-- /repo/ddl/table_structs.go:388-397 `hasColumn`: structs without columns are not written. -/
def hasColumn (s : TableStruct) : Bool := s.fields.any fun f => f.name ≠ [] && f.name ≠ b!"_"

/-- A field that is written by MarshalText (/repo/ddl/table_structs.go:402-430) and read by
VisitStruct (/repo/ddl/struct_parser.go:75-129); `none` is a syntax error or an unclosed brace.  The
text in between is not modelled: strconv.Quote, strconv.Unquote and reflect.StructTag are taken to
be inverse to each other, a field whose name is not an identifier and a tag with a backquote, which
ends the raw string, are taken to be syntax errors. -/
def fieldThroughText (f : StructField) : Option StructField :=
  let ddl := printModifiers f.modifiers
  if (f.name ≠ [] ∧ !isIdent f.name) ∨ '`' ∈ f.nameTag ∨ '`' ∈ ddl then none
  else
    let r := newModifiers ddl
    if r.2 then some { f with modifiers := r.1 } else none

/-- The structs written to a file (/repo/ddl/table_structs.go:383-435) and read from it
(/repo/ddl/struct_parser.go:56-145); `none` is an error of ParseFile. -/
def throughText (ss : List TableStruct) : Option (List TableStruct) :=
  (ss.filter hasColumn).mapM fun s =>
    if isIdent s.name then
      (s.fields.mapM fieldThroughText).map fun fs => { s with fields := fs }
    else none

end Sqddl.Structs
