import Verif.Model.StructParser
import Verif.Model.PqArray

/-!
# The Go source of structs

Model of the text written for structs (/repo/ddl/table_structs.go:383-435,
/repo/ddl/view_structs.go), of what is made of a parsed file (/repo/ddl/struct_parser.go:42-146), and of
the commands `sqddl tables` and `sqddl views` (/repo/ddl/tables_cmd.go:112-213,
/repo/ddl/views_cmd.go:102-168).
-/

namespace Sqddl.Structs
open Sqddl Go

/-! ## Functions of the standard library -/

/-- A character inside `strconv.Quote` (used by /repo/ddl/table_structs.go:419,426,
/repo/ddl/view_structs.go:103).  Bytes from 0x80 are copied; strconv.Quote does this for printable
characters only and escapes other ones. -/
def quoteChar (c : Char) : Str :=
  if c = '"' then b!"\\\"" else if c = '\\' then b!"\\\\"
  else if c.toNat = 7 then b!"\\a" else if c.toNat = 8 then b!"\\b" else if c.toNat = 12 then b!"\\f"
  else if c = '\n' then b!"\\n" else if c = '\r' then b!"\\r" else if c = '\t' then b!"\\t"
  else if c.toNat = 11 then b!"\\v"
  else if c.toNat < 32 ∨ c.toNat = 127 then
    b!"\\x" ++ [hexDigit (c.toNat / 16), hexDigit (c.toNat % 16)]
  else [c]

/-- `strconv.Quote` -/
def goQuote (s : Str) : Str := b!"\"" ++ s.flatMap quoteChar ++ b!"\""

/-- The part of `strconv.Unquote` (used by reflect.StructTag.Get, /repo/ddl/struct_parser.go:97,98)
after the opening quotation mark; `none` is a syntax error.  Escapes with `\u`, `\U` and octal digits
are taken to be errors; `strconv.Quote` does not write them for the characters below 0x80. -/
def unquoteRest : Str → Option Str
  | [] => none
  | '"' :: rest => if rest = [] then some [] else none
  | '\\' :: 'x' :: a :: b :: rest =>
    (hexValue a).bind fun m => (hexValue b).bind fun n =>
      (unquoteRest rest).map (Char.ofNat (16 * m + n) :: ·)
  | '\\' :: c :: rest =>
    (if c = 'a' then some (Char.ofNat 7) else if c = 'b' then some (Char.ofNat 8)
      else if c = 'f' then some (Char.ofNat 12) else if c = 'n' then some '\n'
      else if c = 'r' then some '\r' else if c = 't' then some '\t'
      else if c = 'v' then some (Char.ofNat 11) else if c = '\\' then some '\\'
      else if c = '"' then some '"' else none).bind fun v => (unquoteRest rest).map (v :: ·)
  | c :: rest => if c = '\n' ∨ c = '\\' then none else (unquoteRest rest).map (c :: ·)

/-- `strconv.Unquote` of a text in quotation marks -/
def goUnquote : Str → Option Str
  | '"' :: rest => unquoteRest rest
  | _ => none

/-- The text up to and with the closing quotation mark, and what follows: the loop of
reflect.StructTag.Lookup that skips a quoted value. -/
def cutQuoted : Str → Option (Str × Str)
  | [] => none
  | '"' :: rest => some (b!"\"", rest)
  | '\\' :: c :: rest => (cutQuoted rest).map fun r => ('\\' :: c :: r.1, r.2)
  | c :: rest => (cutQuoted rest).map fun r => (c :: r.1, r.2)

/-- A character of a key in a tag (reflect.StructTag.Lookup). -/
def keyChar (c : Char) : Bool := decide (32 < c.toNat) && c != ':' && c != '"' && c.toNat != 127

/-- `reflect.StructTag(tag).Get(key)`: the value for a key, the empty string if there is none
(/repo/ddl/struct_parser.go:97,98).  The number of rounds is bounded by the length of the tag. -/
def tagGetLoop (key : Str) : Nat → Str → Str
  | 0, _ => []
  | n + 1, tag =>
    let tag := tag.dropWhile (· == ' ')
    let name := tag.takeWhile keyChar
    if name = [] then []
    else
      match tag.dropWhile keyChar with
      | ':' :: '"' :: rest =>
        match cutQuoted rest with
        | none => []
        | some (q, rest) =>
          if key = name then (goUnquote ('"' :: q)).getD [] else tagGetLoop key n rest
      | _ => []

/-- `reflect.StructTag(tag).Get(key)` -/
def tagGet (key tag : Str) : Str := tagGetLoop key (tag.length + 1) tag

/-! ## The text of the structs -/

/-- /repo/ddl/table_structs.go:408-427: the tag of a field, without the backquotes -/
def tagText (f : StructField) : Str :=
  let ddl := printModifiers f.modifiers
  (if f.nameTag ≠ [] then b!"sq:" ++ goQuote f.nameTag else []) ++
  (if f.nameTag ≠ [] ∧ ddl ≠ [] then b!" " else []) ++
  (if ddl ≠ [] then b!"ddl:" ++ goQuote ddl else [])

/-- /repo/ddl/table_structs.go:402-429: a field -/
def fieldText (f : StructField) : Str :=
  (if f.name ≠ [] then b!"\n\t" ++ f.name ++ b!" " ++ f.type else b!"\n\t" ++ f.type) ++
  (if tagText f = [] then [] else b!" `" ++ tagText f ++ b!"`")

/-- /repo/ddl/table_structs.go:401-430: a struct -/
def structText (s : TableStruct) : Str :=
  b!"type " ++ s.name ++ b!" struct {" ++ s.fields.flatMap fieldText ++ b!"\n}\n"

/-- Structs with a blank line between them: /repo/ddl/table_structs.go:398-400 -/
def structsText : List TableStruct → Str
  | [] => []
  | s :: ss => structText s ++ ss.flatMap fun s => b!"\n" ++ structText s

/-- /repo/ddl/table_structs.go:383-435 `MarshalText` -/
def marshalTables (ss : List TableStruct) : Str := structsText (ss.filter hasColumn)

/-! ## The structs of views -/

/-- /repo/ddl/view_structs.go:51-57: the name tag of the first field -/
def viewTag (cur : Str) (v : View) : Str :=
  if (v.viewSchema ≠ [] ∧ v.viewSchema ≠ cur) ∨ needsQuoting v.viewName then
    if v.viewSchema ≠ [] then v.viewSchema ++ b!"." ++ v.viewName else v.viewName
  else []

/-- /repo/ddl/view_structs.go:62-75: the field of the column at position `i`; `none` is a panic. -/
def viewField (d : Dialect) (v : View) (e : Str × Nat) : Option StructField :=
  (getFieldType d { columnType := v.columnTypes[e.2]?.getD [], isEnum := v.enumColumns.contains e.1 }).map
    fun ty => { name := toUpper (noSpace e.1), type := ty }

/-- /repo/ddl/view_structs.go:46-75: the struct of a view.  `ViewStruct` (10-15) has the fields of
`TableStruct`. -/
def viewStruct (cat : Catalog) (v : View) : Option TableStruct :=
  (v.columns.zipIdx.mapM (viewField (dialectOf cat.dialect) v)).map fun fields =>
    { name := toUpper (noSpace v.viewName)
      fields := { type := b!"sq.ViewStruct", nameTag := viewTag cat.currentSchema v } :: fields }

/-- /repo/ddl/view_structs.go:43-80 `ReadCatalog`: the structs of all views of all schemas; `none` is
a panic. -/
def readViews (cat : Catalog) : Option (List TableStruct) :=
  (cat.schemas.flatMap (·.views)).mapM (viewStruct cat)

/-- /repo/ddl/view_structs.go:82-112 `MarshalText`: the text is that of tables, but modifiers are not
looked at and structs without columns are written, too. -/
def marshalViews (ss : List TableStruct) : Str :=
  structsText (ss.map fun s => { s with fields := s.fields.map fun f => { f with modifiers := [] } })

/-! ## Reading a file -/

/-- The types of fields that `VisitStruct` tells apart (package go/ast). -/
inductive AstType where
  /-- `x.y` -/
  | sel (x y : Str)
  /-- `x` -/
  | ident (x : Str)
  /-- `struct{}` -/
  | emptyStruct
  /-- another type -/
  | other
deriving DecidableEq, Repr

/-- A field of a struct (`ast.Field`): the first of its names (none if it is embedded), the type and
the text of the tag within the backquotes. -/
structure AstField where
  name : Str := []
  type : AstType
  tag : Option Str := none
deriving DecidableEq, Repr

/-- A struct type with its name (`ast.TypeSpec`) -/
structure AstStruct where
  name : Str
  fields : List AstField
deriving DecidableEq, Repr

/-- /repo/ddl/struct_parser.go:81-92: the type of a field -/
def typeText : AstType → Str
  | .sel x y => x ++ b!"." ++ y
  | .ident x => x
  | .emptyStruct => b!"struct{}"
  | .other => []

/-- /repo/ddl/struct_parser.go:75-108: a field, and whether its modifiers have a syntax error -/
def visitField (f : AstField) : StructField × Bool :=
  match f.tag with
  | none => ({ name := f.name, type := typeText f.type }, false)
  | some tag =>
    let r := newModifiers (tagGet b!"ddl" tag)
    ({ name := f.name, type := typeText f.type, nameTag := tagGet b!"sq" tag, modifiers := r.1 }, !r.2)

/-- /repo/ddl/struct_parser.go:74-128: the fields of a struct (`none` if the struct is skipped), and
whether an error is reported.  `first` is `i == 0`. -/
def visitFields (name : Str) : Bool → List AstField → Option (List StructField) × Bool
  | _, [] => (some [], false)
  | first, f :: fs =>
    let r := visitField f
    if r.2 then ((visitFields name false fs).1, true)
    else if first ∧ (r.1.name ≠ [] ∨ r.1.type ≠ b!"sq.TableStruct") then
      (none, (name.all fun c => decide ('A' ≤ c) && decide (c ≤ 'Z')) && decide (r.1.type ≠ b!"sq.TableStruct"))
    else
      let rest := visitFields name false fs
      (rest.1.map (r.1 :: ·), rest.2)

/-- /repo/ddl/struct_parser.go:56-130 `VisitStruct` -/
def visitStruct (s : AstStruct) : Option TableStruct × Bool :=
  if s.fields.isEmpty then (none, false)
  else
    let r := visitFields s.name true s.fields
    (r.1.map fun fs => { name := s.name, fields := fs }, r.2)

/-- /repo/ddl/struct_parser.go:134-146 `ParseFile` after go/parser: the structs, `none` if an error was
reported. -/
def visitFile (ss : List AstStruct) : Option (List TableStruct) :=
  let rs := ss.map visitStruct
  if rs.any (·.2) then none else some (rs.filterMap (·.1))

/-! ## The commands -/

/-- /repo/ddl/tables_cmd.go:152-167: the name of one struct with `-schema-qualified-structs`; a struct
of `ReadCatalog` has a first field. -/
def qualifyStruct (cur : Str) (s : TableStruct) : TableStruct :=
  match s.fields with
  | [] => s
  | f :: fs =>
    let n := if f.nameTag ≠ [] then f.nameTag else toLower s.name
    let p := (cutDot n).getD (n, [])
    let p := if p.2 = [] then (p.2, p.1) else p
    let schema := if p.1 = [] ∧ cur ≠ [] then cur else p.1
    if schema ≠ [] then
      { name := toUpper (noSpace (schema ++ b!"_" ++ p.2))
        fields := { f with nameTag := schema ++ b!"." ++ p.2 } :: fs }
    else s

/-- /repo/ddl/tables_cmd.go:150-169 -/
def qualify (qualified : Bool) (cur : Str) (ss : List TableStruct) : List TableStruct :=
  if qualified then ss.map (qualifyStruct cur) else ss

/-- What the system does during a run: whether the directory can be made, the last element of the
directory of the file, gofmt (`none` is a syntax error), whether the file can be opened, and how much of
the two writes is written and whether there is an error. -/
structure RunSystem where
  mkdir : Bool := true
  dirName : Str := []
  format : Str → Option Str
  openOk : Bool := true
  write1 : Str → Str × Bool := fun s => (s, true)
  write2 : Str → Str × Bool := fun s => (s, true)

/-- The file, what was written to the standard output, and whether the command ends without error. -/
structure RunResult where
  file : Option Str := none
  stdout : Str := []
  ok : Bool
deriving DecidableEq, Repr

/-- /repo/ddl/tables_cmd.go:204: the first lines of the file -/
def header (pkg : Str) : Str :=
  b!"package " ++ pkg ++ b!"\n\nimport \"github.com/bokwoon95/sq\"\n\n"

/-- /repo/ddl/tables_cmd.go:204-211: the two writes; an error of the first is the end. -/
def writeBoth (sys : RunSystem) (head text : Str) : Str × Bool :=
  let a := sys.write1 head
  if a.2 then
    let b := sys.write2 text
    (a.1 ++ b.1, b.2)
  else a

/-- /repo/ddl/tables_cmd.go:182-189: the name of the package -/
def packageName (sys : RunSystem) (pkg filename : Str) : Str :=
  let p :=
    if pkg = [] ∧ filename ≠ [] ∧ sys.dirName ≠ [] ∧ sys.dirName ≠ b!"." then noSpace sys.dirName else pkg
  if p = [] then b!"_" else p

/-- /repo/ddl/tables_cmd.go:170-212, /repo/ddl/views_cmd.go:125-167: the part of `Run` after the text
is made.  `old` is the file before the run. -/
def writeText (sys : RunSystem) (pkg filename text : Str) (old : Option Str) : RunResult :=
  if text = [] then { file := old, ok := true }
  else if pkg = [] ∧ filename ≠ [] ∧ sys.mkdir = false then { file := old, ok := false }
  else
    match sys.format text with
    | none => { file := old, ok := false }
    | some text =>
      if filename ≠ [] then
        if sys.openOk then
          let w := writeBoth sys (header (packageName sys pkg filename)) text
          { file := some w.1, ok := w.2 }
        else { file := old, ok := false }
      else
        let w := writeBoth sys (header (packageName sys pkg filename)) text
        { file := old, stdout := w.1, ok := w.2 }

/-- /repo/ddl/tables_cmd.go:112-213 `Run`, from the catalog that the introspection gives (`none` is an
error); the result is `none` if the command panics.  The checks of its arguments (113-124) are left
out. -/
def tablesRun (sys : RunSystem) (qualified : Bool) (pkg filename : Str) (cat : Option Catalog)
    (old : Option Str) : Option RunResult :=
  match cat with
  | none => some { file := old, ok := false }
  | some cat => (readCatalog cat).map fun ss =>
    writeText sys pkg filename (marshalTables (qualify qualified cat.currentSchema ss)) old

/-- /repo/ddl/views_cmd.go:102-168 `Run`, as `tablesRun` -/
def viewsRun (sys : RunSystem) (pkg filename : Str) (cat : Option Catalog) (old : Option Str) :
    Option RunResult :=
  match cat with
  | none => some { file := old, ok := false }
  | some cat => (readViews cat).map fun ss => writeText sys pkg filename (marshalViews ss) old

end Sqddl.Structs
