import Verif.Model.CatalogJson
import Verif.Model.Load
import Verif.Model.IntrospectRows

/-!
# Where `generate` and `automigrate` get their catalogs from

/repo/ddl/generate_cmd.go:113-152, 322-456.
-/

namespace Sqddl.Source
open Go CatalogJson

/-- What `generate` finds: the contents of files, which names are directories, the entries of archives,
and what structs and databases make of a catalog.  `none` is an error. -/
structure Disk where
  file : Str → Option Str
  isDir : Str → Bool
  zip : Str → Option (List Load.Entry)
  tgz : Str → Option (List Load.Entry)
  structs : Str → Catalog → Option Catalog
  database : Str → Catalog → Option Catalog

/-- /repo/ddl/generate_cmd.go:408-428.  Simplified: `filepath.Base` also drops slashes at the end. -/
def fromZip (es : List Load.Entry) : Option Str :=
  (es.find? fun e => !hasPrefix e.name b!"__MACOSX/" && baseName e.name == b!"schema.json").map (·.text)

/-- /repo/ddl/generate_cmd.go:440-456 -/
def fromTgz (es : List Load.Entry) : Option Str :=
  (es.find? fun e => baseName e.name == b!"schema.json").map (·.text)

/-- /repo/ddl/generate_cmd.go:322-388 `writeCatalog` -/
def writeCatalog (k : Disk) (c : Catalog) (s : Str) : Option Catalog :=
  if hasSuffix s b!".json" then (k.file s).bind fun t => decode t c
  else if hasSuffix s b!".go" || hasSuffix s b!".go.txt" then k.structs s c
  else if hasSuffix s b!".zip" then ((k.zip s).bind fromZip).bind fun t => decode t c
  else if hasSuffix s b!".tgz" || hasSuffix s b!".tar.gz" then ((k.tgz s).bind fromTgz).bind fun t => decode t c
  else if k.isDir s then (k.file (s ++ b!"/schema.json")).bind fun t => decode t c
  else k.database s c

/-- /repo/ddl/generate_cmd.go:120-125, 144-150: the sources one after the other -/
def writeAll (k : Disk) (c : Catalog) (src : Str) : Option Catalog :=
  (split ',' src).foldlM (writeCatalog k) c

/-- /repo/ddl/generate_cmd.go:113-152: the catalogs of -src (or -db) and -dest; `dialect` is -dialect -/
def catalogs (k : Disk) (dialect src db dest : Str) : Option (Catalog × Catalog) :=
  let empty : Catalog := { dialect }
  (if src ≠ [] then writeAll k empty src
   else if db ≠ [] then writeCatalog k empty db
   else some empty).bind fun s =>
  let d : Catalog :=
    { dialect := if dialect = [] then s.dialect else dialect, currentSchema := s.currentSchema }
  (if dest ≠ [] then writeAll k d dest else some d).map fun d => (s, d)

end Sqddl.Source
