import Verif.Spec.GoText
import Verif.Spec.Structs

/-!
# Files of structs

When structs can be written as Go source, what the system is trusted with when a file is written, and
what the struct of a view says.
-/

namespace StructSpec
open Sqddl Go Sqddl.Structs
open GoText (Ident)

/-- A field that can be written as Go source. -/
structure WritableField (f : StructField) : Prop where
  type : f.type = b!"struct{}" ∨ ∃ y, Ident y ∧ f.type = b!"sq." ++ y
  tag : '`' ∉ f.nameTag
  ddl : '`' ∉ printModifiers f.modifiers

/-- A struct with an embedded first field of the type `base` that can be written as Go source. -/
structure Writable (base : Str) (s : TableStruct) : Prop where
  name : Ident s.name
  first : ∃ f fs, s.fields = f :: fs ∧ f.name = [] ∧ f.type = base ∧ ∀ g ∈ fs, Ident g.name
  fields : ∀ f ∈ s.fields, WritableField f

/-- gofmt changes nothing but white space. -/
def Gofmt (format : Str → Option Str) : Prop := ∀ a b, format a = some b → GoText.SameTokens b a

/-- The system is trusted with this: gofmt changes white space only, and a write without an error has
written everything. -/
structure Trusted (sys : RunSystem) : Prop where
  format : Gofmt sys.format
  write1 : ∀ s, (sys.write1 s).2 = true → (sys.write1 s).1 = s
  write2 : ∀ s, (sys.write2 s).2 = true → (sys.write2 s).1 = s

/-- The name that a type or field with a tag stands for: the tag `sq`, otherwise the name in lower
case. -/
def named (tag : Option Str) (name : Str) : Str :=
  let t := tagGet b!"sq" (tag.getD [])
  if t ≠ [] then t else toLower name

/-- The schema and the name in `schema.name`; without a dot the schema is the current one. -/
def qualifiedName (cur s : Str) : Str × Str :=
  if '.' ∈ s then (s.takeWhile (· ≠ '.'), (s.dropWhile (· ≠ '.')).drop 1) else (cur, s)

/-- What the struct of a view says: the schema and the name of the view, and its columns with the types
of the fields. -/
def viewSays (cur : Str) (a : AstStruct) : Option ((Str × Str) × List (Str × Str)) :=
  match a.fields with
  | [] => none
  | f :: fs =>
    if f.name = [] ∧ f.type = .sel b!"sq" b!"ViewStruct" then
      some (qualifiedName cur (named f.tag a.name), fs.map fun g => (named g.tag g.name, typeText g.type))
    else none

/-- The views of a catalog. -/
def viewsOf (cat : Catalog) : List View := cat.schemas.flatMap (·.views)

/-- The columns of a view with the types of field that columns of tables with these types have. -/
def viewColumns (d : Dialect) (v : View) : List (Str × Str) :=
  v.columns.zipIdx.map fun e =>
    (e.1, (getFieldType d
      { columnType := v.columnTypes[e.2]?.getD [], isEnum := v.enumColumns.contains e.1 }).getD [])

/-- Schemas and names of views that can be written: the name becomes an identifier of Go, and the
schema is free of the dot that ends it and of the backquote that ends the tag. -/
structure ViewNameFits (cur : Str) (v : View) : Prop where
  name : GoName v.viewName
  schema : if v.viewSchema = [] then cur = [] else '.' ∉ v.viewSchema ∧ '`' ∉ v.viewSchema
  columns : ∀ c ∈ v.columns, GoName c

end StructSpec
