import Verif.Basic

/-! Model of the selection of migration files (/repo/ddl/touch_cmd.go). -/

namespace Sqddl

/-- `filepath.Base(name)` for a name that does not end in `/`: the part after the last slash.
(`filepath.Base` is only called on names ending in `.sql`, /repo/ddl/touch_cmd.go:330-333.) -/
def baseName (s : Str) : Str := (s.reverse.takeWhile (· ≠ '/')).reverse

/-- /repo/ddl/touch_cmd.go:330-336: the tests that make `sortAndFilterFilenames` skip a file.
`filepath.ToSlash` is the identity on the systems modelled (separator `/`). -/
def isMigrationFile (f : Str) : Bool :=
  Go.hasSuffix f b!".sql" && !Go.hasSuffix f b!".undo.sql" &&
  !(baseName f == b!"schema.sql" || baseName f == b!"indexes.sql" || baseName f == b!"constraints.sql")

/-- /repo/ddl/touch_cmd.go:337, /repo/ddl/migrate_cmd.go:280: files under `repeatable/`. -/
def isRepeatable (f : Str) : Bool := Go.hasPrefix f b!"repeatable/"

/-- /repo/ddl/touch_cmd.go:325-345 `sortAndFilterFilenames`: the loop with its two accumulators
`result` and `repeatable`. -/
def sortAndFilterLoop : List Str → List Str → List Str → List Str
  | [], result, repeatable => result ++ repeatable
  | f :: fs, result, repeatable =>
    if !isMigrationFile f then sortAndFilterLoop fs result repeatable
    else if isRepeatable f then sortAndFilterLoop fs result (repeatable ++ [f])
    else sortAndFilterLoop fs (result ++ [f]) repeatable

/-- /repo/ddl/touch_cmd.go:325-345 `sortAndFilterFilenames`. -/
def sortAndFilter (fs : List Str) : List Str := sortAndFilterLoop fs [] []

/-- `.tx.sql` files, /repo/ddl/migrate_cmd.go:308,310,365. -/
def isTxFile (f : Str) : Bool := Go.hasSuffix f b!".tx.sql"

/-- `.txoff.sql` files, /repo/ddl/migrate_cmd.go:309,311,365. -/
def isTxoffFile (f : Str) : Bool := Go.hasSuffix f b!".txoff.sql"

/-- /repo/ddl/migrate_cmd.go:578: name of the undo script of a migration. -/
def undoFile (f : Str) : Str :=
  Go.trimSuffix (Go.trimSuffix f b!".sql") b!".txoff" ++ b!".undo.sql"

/-- `bytes.ReplaceAll(b, "\r\n", "\n")`, /repo/ddl/migrate_cmd.go:296, touch_cmd.go:166,
ls_cmd.go:212. -/
def crlfToLf : Str → Str
  | '\r' :: '\n' :: r => '\n' :: crlfToLf r
  | c :: r => c :: crlfToLf r
  | [] => []

/-- /repo/ddl/migrate_cmd.go:378-383: the trimmed file has exactly one semicolon, at its end. -/
def isSingleStmt (contents : Str) : Bool :=
  let b := Go.trimSpace contents
  b.count ';' == 1 && b.getLast? == some ';'

/-- /repo/ddl/touch_cmd.go:310-323 `normalizeFilename` (with `filepath.ToSlash` the identity). -/
def normalizeFilename (filename dir : Str) : Str :=
  if dir = [] then filename
  else
    let filename := if Go.hasPrefix filename b!"." then
      Go.trimPrefix (Go.trimPrefix filename b!".") b!"/" else filename
    let dir := if Go.hasPrefix dir b!"." then Go.trimPrefix (Go.trimPrefix dir b!".") b!"/" else dir
    Go.trimPrefix (Go.trimPrefix filename dir) b!"/"

end Sqddl
