import Verif.Model.TableStructs
import Verif.Model.CacheOps
import Verif.Model.PostgresSql

/-!
# The catalog described by structs: /repo/ddl/struct_parser.go:148-856

Pointers to columns, constraints and indexes are positions in the slices of the table, as in
`Verif.Model.CacheOps`; `none` is a panic.  Of the errors reported it is kept whether there was one.
-/

namespace Sqddl.Structs
open Go

/-- The StructParser while it works on one table: the table (in Go a pointer into the catalog), the
cache, whether an error has been reported, the keys of `locations` and those of
`columnExplicitType`. -/
structure Parser where
  table : Table := {}
  cache : CatalogCache := {}
  failed : Bool := false
  located : List (Str × Str) := []
  explicit : List (Str × Str × Str) := []

/-- /repo/ddl/struct_parser.go:858-861 `report` -/
def Parser.report (p : Parser) : Parser := { p with failed := true }

/-- `p.report(…)` if the condition holds -/
def Parser.reportIf (b : Bool) (p : Parser) : Parser := { p with failed := p.failed || b }

/-- `p.locations[[2]string{table.TableSchema, name}] = loc` -/
def Parser.locate (name : Str) (p : Parser) : Parser :=
  { p with located := p.located ++ [(p.table.tableSchema, name)] }

/-- Changes the column at a position. -/
def Parser.setColumn (i : Nat) (f : Column → Column) (p : Parser) : Parser :=
  { p with table := { p.table with columns := p.table.columns.modify i f } }

/-- Changes the constraint at a position. -/
def Parser.setConstraint (i : Nat) (f : Constraint → Constraint) (p : Parser) : Parser :=
  { p with table := { p.table with constraints := p.table.constraints.modify i f } }

/-- Changes the index at a position. -/
def Parser.setIndex (i : Nat) (f : Index → Index) (p : Parser) : Parser :=
  { p with table := { p.table with indexes := p.table.indexes.modify i f } }

/-- The column names of a modifier: /repo/ddl/struct_parser.go:407-409, 447-449 -/
def valueColumns (m : Modifier) (columns : List Str) : List Str :=
  if m.value ≠ [] ∧ m.value ≠ b!"." then splitComma m.value else columns

/-- /repo/ddl/struct_parser.go:419-434, one submodifier of an index -/
def indexSub (d : Dialect) (x : Index) (m : Modifier) : Index :=
  if m.name = b!"unique" then { x with isUnique := true }
  else if m.name = b!"using" ∧ (d = .postgres ∨ d = .mysql) then { x with indexType := m.raw }
  else x

/-- /repo/ddl/struct_parser.go:401-436 `parseIndexModifier` -/
def parseIndexModifier (dn : Str) (m : Modifier) (columns : List Str) (p : Parser) : Option Parser :=
  let r := parseRawValue m
  if r.2 = false then some p.report
  else
    let cols := valueColumns r.1 columns
    let name := generateName .index p.table.tableName cols
    let p := (p.reportIf cols.isEmpty).locate name
    (p.cache.getOrCreateIndex p.table name cols).map fun g =>
      let subs := r.1.subs.filter fun s => !excludesDialect s dn
      (({ p with table := g.1, cache := g.2.1 } : Parser).setIndex g.2.2 fun x =>
        subs.foldl (indexSub (dialectOf dn))
          { x with tableSchema := p.table.tableSchema, tableName := p.table.tableName,
                   ignore := excludesDialect r.1 dn }).reportIf
        (subs.any fun s => !([b!"unique", b!"using"].contains s.name))

/-- The dialects with deferrable constraints. -/
def defers (d : Dialect) : Bool := d == .sqlite || d == .postgres

/-- /repo/ddl/struct_parser.go:469-479, 570-580, 668-676: `deferrable` and `deferred` -/
def deferSub (d : Dialect) (k : Constraint) (m : Modifier) : Constraint :=
  if m.name = b!"deferrable" ∧ defers d then { k with isDeferrable := true }
  else if m.name = b!"deferred" ∧ defers d then
    { k with isDeferrable := true, isInitiallyDeferred := true }
  else k

/-- /repo/ddl/struct_parser.go:438-484 `parsePrimaryKeyUniqueModifier` -/
def parsePrimaryKeyUniqueModifier (dn : Str) (m : Modifier) (columns : List Str) (p : Parser) :
    Option Parser :=
  let r := parseRawValue m
  if r.2 = false then some p.report
  else
    let type := if toUpper r.1.name = UNIQUE then UNIQUE else PRIMARY_KEY
    let cols := valueColumns r.1 columns
    let name :=
      if dialectOf dn = .mysql ∧ type = PRIMARY_KEY then b!"PRIMARY"
      else generateName (nameTypeOf type) p.table.tableName cols
    let p := (p.reportIf cols.isEmpty).locate name
    (p.cache.getOrCreateConstraint p.table name type cols).map fun g =>
      let subs := r.1.subs.filter fun s => !excludesDialect s dn
      (({ p with table := g.1, cache := g.2.1 } : Parser).setConstraint g.2.2 fun k =>
        subs.foldl (deferSub (dialectOf dn))
          { k with tableSchema := p.table.tableSchema, tableName := p.table.tableName,
                   ignore := excludesDialect r.1 dn }).reportIf
        (subs.any fun s => !([b!"deferrable", b!"deferred"].contains s.name))

/-- strings.Index(s, "."): the parts before and after the first dot -/
def cutDot (s : Str) : Option (Str × Str) :=
  if '.' ∈ s then some (s.takeWhile (· ≠ '.'), (s.dropWhile (· ≠ '.')).tail) else none

/-- /repo/ddl/struct_parser.go:513-525, 605-617: the table and columns of a foreign key, by the
number of parts of `strings.SplitN(s, ".", 3)`. -/
def setReferences (s : Str) (columns : List Str) (k : Constraint) : Constraint :=
  (cutDot s).elim { k with referencesTable := s, referencesColumns := columns } fun a =>
    (cutDot a.2).elim { k with referencesTable := a.1, referencesColumns := splitComma a.2 } fun b =>
      { k with referencesSchema := a.1, referencesTable := b.1, referencesColumns := splitComma b.2 }

/-- /repo/ddl/struct_parser.go:527-547, 549-569, 625-645, 647-667: the rule; `none` is an unknown
value. -/
def ruleOf (d : Dialect) (s : Str) : Option Str :=
  if s = b!"cascade" then some CASCADE
  else if s = b!"restrict" then some (if d = .sqlserver then NO_ACTION else RESTRICT)
  else if s = b!"noaction" then some NO_ACTION
  else if s = b!"setnull" then some SET_NULL
  else if s = b!"setdefault" then some SET_DEFAULT
  else if s = [] then some []
  else none

/-- /repo/ddl/struct_parser.go:507-587 (`isRef = false`) and 619-683 (`isRef = true`): one
submodifier of a foreign key at position `i`.  Only `foreignkey` has a submodifier `references`. -/
def fkeySub (dn : Str) (isRef : Bool) (columns : List Str) (i : Nat) (p : Parser) (m : Modifier) :
    Option Parser :=
  let d := dialectOf dn
  if excludesDialect m dn then some p
  else if m.name = b!"references" ∧ isRef = false then
    some (p.setConstraint i (setReferences m.raw columns))
  else if m.name = b!"onupdate" then
    some ((ruleOf d m.raw).elim p.report fun r => p.setConstraint i fun k => { k with updateRule := r })
  else if m.name = b!"ondelete" then
    some ((ruleOf d m.raw).elim p.report fun r => p.setConstraint i fun k => { k with deleteRule := r })
  else if m.name = b!"deferrable" ∨ m.name = b!"deferred" then
    some (p.setConstraint i fun k => deferSub d k m)
  else if m.name = b!"index" then parseIndexModifier dn m columns p
  else some p.report

/-- /repo/ddl/struct_parser.go:486-588 `parseForeignKeyModifier` -/
def parseForeignKeyModifier (dn : Str) (m : Modifier) (p : Parser) : Option Parser :=
  let r := parseRawValue m
  if r.2 = false ∨ r.1.value = [] ∨ r.1.value = b!"." ∨ r.1.subs.isEmpty then some p.report
  else
    let cols := splitComma r.1.value
    let name := generateName .foreignKey p.table.tableName cols
    let p := p.locate name
    (p.cache.getOrCreateConstraint p.table name FOREIGN_KEY cols).bind fun g =>
      r.1.subs.foldlM (fkeySub dn false cols g.2.2)
        (({ p with table := g.1, cache := g.2.1 } : Parser).setConstraint g.2.2 fun k =>
          { k with tableSchema := p.table.tableSchema, tableName := p.table.tableName,
                   ignore := excludesDialect r.1 dn })

/-- /repo/ddl/struct_parser.go:590-684 `parseReferencesModifier` -/
def parseReferencesModifier (dn : Str) (m : Modifier) (column : Str) (p : Parser) : Option Parser :=
  let r := parseRawValue m
  if r.2 = false then some p.report
  else
    let name := generateName .foreignKey p.table.tableName [column]
    let p := (p.reportIf column.isEmpty).locate name
    (p.cache.getOrCreateConstraint p.table name FOREIGN_KEY [column]).bind fun g =>
      r.1.subs.foldlM (fkeySub dn true [column] g.2.2)
        (({ p with table := g.1, cache := g.2.1 } : Parser).setConstraint g.2.2 fun k =>
          setReferences r.1.value [column]
            { k with tableSchema := p.table.tableSchema, tableName := p.table.tableName,
                     ignore := excludesDialect r.1 dn })

/-- /repo/ddl/struct_parser.go:704-724: the modifier `type`; `none` is a panic of
normalizeColumnType. -/
def setType (d : Dialect) (s : Str) (c : Column) : Option Column :=
  (normalizeColumnType d s).map fun r =>
    if r.1 ∈ [b!"VARBINARY", b!"BINARY", b!"NVARCHAR", b!"VARCHAR", b!"CHAR"] then
      if r.2.1 ≠ [] then
        { c with columnType := s, characterLength := r.2.1, numericPrecision := [], numericScale := [] }
      else
        { c with
          columnType :=
            if c.characterLength ≠ [] then s ++ b!"(" ++ c.characterLength ++ b!")" else s
          numericPrecision := [], numericScale := [] }
    else if r.1 = b!"NUMERIC" then
      { c with
        columnType := s
        numericPrecision := if r.2.1 ≠ [] then r.2.1 else c.numericPrecision
        numericScale := if r.2.2 ≠ [] then r.2.2 else c.numericScale
        characterLength := [] }
    else
      { c with columnType := s, characterLength := [], numericPrecision := [], numericScale := [] }

/-- /repo/ddl/struct_parser.go:725-734: the modifier `len` -/
def setLength (d : Dialect) (s : Str) (c : Column) : Column :=
  { c with
    characterLength := s
    columnType :=
      if s = [] then c.columnType
      else match d with
        | .postgres | .mysql => b!"VARCHAR(" ++ s ++ b!")"
        | .sqlserver => b!"NVARCHAR(" ++ s ++ b!")"
        | _ => c.columnType }

/-- /repo/ddl/struct_parser.go:769-781: the modifier `default` -/
def defaultOf (isFloat : Str → Bool) (d : Dialect) (s : Str) : Str :=
  if d ≠ .postgres ∧ !Postgres.isLiteral isFloat s then wrapBrackets s
  else if d = .sqlserver ∧ toUpper s = b!"TRUE" then b!"1"
  else if d = .sqlserver ∧ toUpper s = b!"FALSE" then b!"0"
  else s

/-- /repo/ddl/struct_parser.go:735-783: the modifiers that only set attributes of the column; `none`
for other modifiers. -/
def setAttr (isFloat : Str → Bool) (d : Dialect) (m : Modifier) : Option (Column → Column) :=
  if m.name = b!"len" then some (setLength d m.raw)
  else if m.name = b!"auto_increment" then
    some fun c => if d = .mysql then { c with isAutoincrement := true } else c
  else if m.name = b!"autoincrement" then
    some fun c => if d = .sqlite then { c with columnType := b!"INTEGER", isAutoincrement := true } else c
  else if m.name = b!"identity" then
    some fun c => if d = .postgres then { c with columnIdentity := DEFAULT_IDENTITY }
      else if d = .sqlserver then { c with columnIdentity := IDENTITY } else c
  else if m.name = b!"alwaysidentity" then
    some fun c => if d = .postgres then { c with columnIdentity := ALWAYS_IDENTITY }
      else if d = .sqlserver then { c with columnIdentity := IDENTITY } else c
  else if m.name = b!"notnull" then some fun c => { c with isNotNull := true }
  else if m.name = b!"onupdatecurrenttimestamp" then
    some fun c => if d = .mysql then { c with onUpdateCurrentTimestamp := true } else c
  else if m.name = b!"collate" then some fun c => { c with collationName := m.raw }
  else if m.name = b!"default" then some fun c => { c with columnDefault := defaultOf isFloat d m.raw }
  else if m.name = b!"generated" then some fun c => { c with isGenerated := true }
  else none

/-- The dialects of a modifier: `if len(modifier.Dialects) == 0 { modifier.Dialects = dialects }`,
/repo/ddl/struct_parser.go:695-697, 820-822 -/
def withDefaultDialects (ds : List Str) (m : Modifier) : Modifier :=
  if m.dialects = [] then .mk ds m.name m.raw m.value m.subs else m

/-- /repo/ddl/struct_parser.go:693-813: one modifier of the column at position `i`.  The state is the
parser and `dialects`. -/
def columnModifier (isFloat : Str → Bool) (dn : Str) (column : Str) (i : Nat)
    (st : Parser × List Str) (m0 : Modifier) : Option (Parser × List Str) :=
  let d := dialectOf dn
  let m := withDefaultDialects st.2 m0
  let keep : Option Parser → Option (Parser × List Str) := fun o => o.map fun p => (p, st.2)
  if excludesDialect m dn then some st
  else if m.name = b!"type" then
    (st.1.table.columns[i]?).bind fun c => (setType d m.raw c).map fun c' =>
      ({ st.1.setColumn i (fun _ => c') with
         explicit := st.1.explicit ++ [(st.1.table.tableSchema, st.1.table.tableName, column)] }, st.2)
  else if m.name = b!"dialect" then
    if m.raw = [] then some (st.1.report, st.2)
    else
      let ds := splitComma m.raw
      some (st.1.setColumn i (fun c => { c with ignore := !ds.contains dn }), ds)
  else if m.name = b!"index" then keep (parseIndexModifier dn m [column] st.1)
  else if m.name = b!"primarykey" ∨ m.name = b!"unique" then
    keep (parsePrimaryKeyUniqueModifier dn m [column] st.1)
  else if m.name = b!"foreignkey" then keep (parseForeignKeyModifier dn m st.1)
  else if m.name = b!"references" then keep (parseReferencesModifier dn m column st.1)
  else some ((setAttr isFloat d m).elim st.1.report fun f => st.1.setColumn i f, st.2)

/-- /repo/ddl/struct_parser.go:686-814 `parseColumnModifiers`.  (`columnType` is the type of the
database, so that `IsEnum` is never set.) -/
def parseColumnModifiers (isFloat : Str → Bool) (dn : Str) (column type : Str) (ms : List Modifier)
    (p : Parser) : Option Parser :=
  (p.cache.getOrCreateColumn p.table column type).bind fun g =>
    (ms.foldlM (columnModifier isFloat dn column g.2.2)
      (({ p with table := g.1, cache := g.2.1 } : Parser).setColumn g.2.2 fun c =>
        { c with tableSchema := p.table.tableSchema, tableName := p.table.tableName,
                 isEnum := type == b!"sq.EnumField" }, [])).map (·.1)

/-- /repo/ddl/struct_parser.go:818-855: one modifier of the table -/
def tableModifier (dn : Str) (st : Parser × List Str) (m0 : Modifier) : Option (Parser × List Str) :=
  let m := withDefaultDialects st.2 m0
  let keep : Option Parser → Option (Parser × List Str) := fun o => o.map fun p => (p, st.2)
  if m.name = b!"dialect" then
    if m.raw = [] then some (st.1.report, st.2)
    else
      let ds := splitComma m.raw
      some ({ st.1 with table := { st.1.table with ignore := !ds.contains dn } }, ds)
  else if m.name = b!"index" then keep (parseIndexModifier dn m [] st.1)
  else if m.name = b!"primarykey" ∨ m.name = b!"unique" then
    keep (parsePrimaryKeyUniqueModifier dn m [] st.1)
  else if m.name = b!"foreignkey" then keep (parseForeignKeyModifier dn m st.1)
  else if m.name = b!"virtual" then
    some (if dialectOf dn = .sqlite then { st.1 with table := { st.1.table with isVirtual := true } }
      else st.1, st.2)
  else some (st.1.report, st.2)

/-- /repo/ddl/struct_parser.go:816-856 `parseTableModifiers` -/
def parseTableModifiers (dn : Str) (ms : List Modifier) (p : Parser) : Option Parser :=
  (ms.foldlM (tableModifier dn) (p, [])).map (·.1)

/-- /repo/ddl/struct_parser.go:188-271: the column type and character length of a type of field;
`none` for other types. -/
def fieldColumnType (d : Dialect) (fieldType : Str) : Option (Str × Str) :=
  if fieldType = b!"sq.AnyField" then some ([], [])
  else if fieldType = b!"sq.ArrayField" then
    some (match d with
      | .sqlite | .mysql => (b!"JSON", [])
      | .postgres => (b!"TEXT[]", [])
      | .sqlserver => (b!"NVARCHAR(MAX)", b!"MAX")
      | _ => (b!"VARCHAR(255)", b!"255"))
  else if fieldType = b!"sq.BinaryField" then
    some (match d with
      | .sqlite => (b!"BLOB", [])
      | .postgres => (b!"BYTEA", [])
      | .mysql => (b!"MEDIUMBLOB", [])
      | .sqlserver => (b!"VARBINARY(MAX)", b!"MAX")
      | _ => (b!"BINARY", []))
  else if fieldType = b!"sq.BooleanField" then
    some (match d with
      | .sqlserver => (b!"BIT", [])
      | _ => (b!"BOOLEAN", []))
  else if fieldType = b!"sq.EnumField" ∨ fieldType = b!"sq.StringField" then
    some (match d with
      | .sqlite | .postgres => (b!"TEXT", [])
      | .sqlserver => (b!"NVARCHAR(255)", b!"255")
      | _ => (b!"VARCHAR(255)", b!"255"))
  else if fieldType = b!"sq.JSONField" then
    some (match d with
      | .sqlite | .mysql => (b!"JSON", [])
      | .postgres => (b!"JSONB", [])
      | .sqlserver => (b!"NVARCHAR(MAX)", b!"MAX")
      | _ => (b!"VARCHAR(255)", []))
  else if fieldType = b!"sq.NumberField" then some (b!"INT", [])
  else if fieldType = b!"sq.TimeField" then
    some (match d with
      | .postgres => (b!"TIMESTAMPTZ", [])
      | .sqlserver => (b!"DATETIMEOFFSET", [])
      | _ => (b!"DATETIME", []))
  else if fieldType = b!"sq.UUIDField" then
    some (match d with
      | .sqlite | .postgres => (b!"UUID", [])
      | _ => (b!"BINARY(16)", []))
  else none

/-- /repo/ddl/struct_parser.go:272-275: `column.CharacterLength = characterLength` -/
def presetLength (column type length : Str) (p : Parser) : Option Parser :=
  if length = [] then some p
  else (p.cache.getOrCreateColumn p.table column type).map fun g =>
    ({ p with table := g.1, cache := g.2.1 } : Parser).setColumn g.2.2 fun c =>
      { c with characterLength := length }

/-- /repo/ddl/struct_parser.go:174-277: one field of a struct -/
def parseField (isFloat : Str → Bool) (dn : Str) (p : Parser) (f : StructField) : Option Parser :=
  if (f.name = [] ∧ f.type = b!"sq.TableStruct") ∨ (f.name = b!"_" ∧ f.type = b!"struct{}") then
    parseTableModifiers dn f.modifiers p
  else
    let column := if f.nameTag ≠ [] then f.nameTag else toLower f.name
    (fieldColumnType (dialectOf dn) f.type).elim (some p) fun ty =>
      (presetLength column ty.1 ty.2 p).bind (parseColumnModifiers isFloat dn column ty.1 f.modifiers)

/-- The position of a column: GetColumn, /repo/ddl/catalog_cache.go:436-445; `some none` is nil,
`none` a panic. -/
def columnPos (p : Parser) (name : Str) : Option (Option Nat) :=
  slot (·.ignore) p.table.columns
    (p.cache.columns.get (p.table.tableSchema, p.table.tableName, name))

/-- Whether one of the columns is missing: /repo/ddl/struct_parser.go:284-295, 328-334 -/
def missingColumn (p : Parser) (columns : List Str) : Option Bool :=
  columns.foldlM (fun b n => (columnPos p n).map fun i => b || i.isNone) false

/-- /repo/ddl/struct_parser.go:302-320: what a constraint on one column says about the column;
`none` is the index out of range of `constraint.ReferencesColumns[0]`. -/
def markColumn (d : Dialect) (explicit : Bool) (k : Constraint) (c : Column) : Option Column :=
  if k.constraintType = PRIMARY_KEY then
    some { c with
      isPrimaryKey := true
      columnType :=
        if d = .sqlite ∧ toUpper c.columnType = b!"INT" ∧ explicit = false then b!"INTEGER"
        else c.columnType }
  else if k.constraintType = UNIQUE then some { c with isUnique := true }
  else k.referencesColumns.head?.map fun r =>
    { c with referencesSchema := k.referencesSchema, referencesTable := k.referencesTable,
             referencesColumn := r, updateRule := k.updateRule, deleteRule := k.deleteRule,
             isDeferrable := k.isDeferrable, isInitiallyDeferred := k.isInitiallyDeferred }

/-- /repo/ddl/struct_parser.go:280-321: one constraint -/
def checkConstraint (d : Dialect) (p : Parser) (k : Constraint) : Option Parser :=
  if k.ignore then some p
  else (missingColumn p k.columns).bind fun missing =>
    if missing then some p.report
    else if k.columns.length = 1 ∧ (k.constraintType = PRIMARY_KEY ∨ k.constraintType = UNIQUE ∨
        k.constraintType = FOREIGN_KEY) then
      (columnPos p (k.columns.headD [])).bind fun i => i.bind fun i =>
        (p.table.columns[i]?).bind fun c =>
          (markColumn d (p.explicit.contains
              (p.table.tableSchema, p.table.tableName, k.columns.headD [])) k c).map fun c' =>
            p.setColumn i fun _ => c'
    else some p

/-- /repo/ddl/struct_parser.go:324-335: one index -/
def checkIndex (p : Parser) (x : Index) : Option Parser :=
  if x.ignore then some p
  else (missingColumn p x.columns).map fun missing => p.reportIf missing

/-- /repo/ddl/struct_parser.go:340-351: one column of the primary key -/
def pkeyNotNull (d : Dialect) (p : Parser) (name : Str) : Option Parser :=
  (columnPos p name).map fun i => i.elim p fun i =>
    p.setColumn i fun c =>
      if d = .sqlite ∧ c.columnType = b!"INTEGER" ∧ c.isPrimaryKey then c
      else { c with isNotNull := true }

/-- /repo/ddl/struct_parser.go:337-352 -/
def setPkeyNotNull (d : Dialect) (p : Parser) : Option Parser :=
  match p.cache.getPrimaryKey p.table with
  | .panic => none
  | .nil => some p
  | .found k => k.columns.foldlM (pkeyNotNull d) p

/-- /repo/ddl/struct_parser.go:173-352: the fields of a struct, and the checks of the table -/
def parseTable (isFloat : Str → Bool) (dn : Str) (fields : List StructField) (p : Parser) :
    Option Parser :=
  (fields.foldlM (parseField isFloat dn) p).bind fun p =>
    (p.table.constraints.foldlM (checkConstraint (dialectOf dn)) p).bind fun p =>
      (p.table.indexes.foldlM checkIndex p).bind (setPkeyNotNull (dialectOf dn))

/-- The StructParser between two structs: catalog, and the rest as in `Parser`. -/
structure Writer where
  cat : Catalog := {}
  cache : CatalogCache := {}
  failed : Bool := false
  located : List (Str × Str) := []
  explicit : List (Str × Str × Str) := []

/-- /repo/ddl/struct_parser.go:158-168: schema and name of the table of a struct -/
def structTable (cur : Str) (s : TableStruct) : Str × Str :=
  let tag := (s.fields.head?.map (·.nameTag)).getD []
  let name := if tag ≠ [] then tag else toLower s.name
  let parts := (cutDot name).getD ([], name)
  (if parts.1 = [] then cur else parts.1, parts.2)

/-- /repo/ddl/struct_parser.go:154-353: one struct -/
def writeStruct (isFloat : Str → Bool) (dn : Str) (w : Writer) (s : TableStruct) : Option Writer :=
  if s.fields.isEmpty then some w
  else
    let n := structTable w.cat.currentSchema s
    (w.cache.getOrCreateSchema w.cat n.1).bind fun g =>
      (g.1.schemas[g.2.2]?).bind fun schema =>
        (g.2.1.getOrCreateTable schema n.2).bind fun h =>
          (h.1.tables[h.2.2]?).bind fun table =>
            (parseTable isFloat dn s.fields
              { table, cache := h.2.1, failed := w.failed, located := w.located,
                explicit := w.explicit }).map fun p =>
              { cat := { g.1 with
                  schemas := g.1.schemas.set g.2.2 { h.1 with tables := h.1.tables.set h.2.2 p.table } }
                cache := p.cache, failed := p.failed, located := p.located, explicit := p.explicit }

/-- /repo/ddl/struct_parser.go:359-394: whether an error is reported for a foreign key; `none` is a
panic. -/
def fkeyMissing (w : Writer) (t : Table) (k : Constraint) : Option Bool :=
  if k.ignore ∨ k.constraintType ≠ FOREIGN_KEY ∨
      !w.located.contains (t.tableSchema, k.constraintName) then some false
  else
    let schemaName := if k.referencesSchema = [] then w.cat.currentSchema else k.referencesSchema
    match w.cache.getSchema w.cat schemaName with
    | .panic => none
    | .nil => some true
    | .found s =>
      match w.cache.getTable s k.referencesTable with
      | .panic => none
      | .nil => some true
      | .found r => missingColumn { table := r, cache := w.cache } k.referencesColumns

/-- /repo/ddl/struct_parser.go:148-399 `WriteCatalog`: the catalog and whether there was an error;
`none` is a panic.  `isFloat` is whether `strconv.ParseFloat` accepts a text. -/
def writeCatalog (isFloat : Str → Bool) (ss : List TableStruct) (cat : Catalog) :
    Option (Catalog × Bool) :=
  (ss.foldlM (writeStruct isFloat cat.dialect) { cat, cache := newCatalogCache cat }).bind fun w =>
    ((w.cat.schemas.flatMap fun s => s.tables.flatMap fun t => t.constraints.map fun k => (t, k)).foldlM
      (fun b (e : Table × Constraint) => (fkeyMissing w e.1 e.2).map (b || ·)) w.failed).map fun failed =>
        (w.cat, failed)

/-- /repo/ddl/generate_cmd.go:119-135: the catalog of the destination before the files are read -/
def emptyLike (cat : Catalog) : Catalog :=
  { dialect := cat.dialect, currentSchema := cat.currentSchema }

/-- `-dest file1.go,file2.go`: the files are read one after the other into the same catalog, each with
a parser of its own, up to the first error (/repo/ddl/generate_cmd.go:144-151, 336-352). -/
def readFiles (isFloat : Str → Bool) (files : List (List TableStruct)) (cat : Catalog) :
    Option (Catalog × Bool) :=
  files.foldlM (fun (r : Catalog × Bool) ss => if r.2 then some r else writeCatalog isFloat ss r.1)
    (cat, false)

/-- `sqddl tables` writes the structs of a database to a file (/repo/ddl/tables_cmd.go:83-108), and
`sqddl generate -src db -dest file` reads the file again (/repo/ddl/generate_cmd.go:336-352): the
catalog of the destination, and whether reading fails; `none` is a panic or an error of the parser of
Go. -/
def roundTrip (isFloat : Str → Bool) (cat : Catalog) : Option (Catalog × Bool) :=
  (readCatalog cat).bind fun ss => (throughText ss).bind fun ss =>
    writeCatalog isFloat ss (emptyLike cat)

end Sqddl.Structs
