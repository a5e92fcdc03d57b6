import Verif.Model.Ddl

/-!
# Database URLs: /repo/ddl/ddl.go:960-1062 and the SQLite driver's PreprocessDSN
-/

namespace Go

/-- `strings.Cut(s, "?")`: the part before (all of `s` if there is no question mark). -/
def beforeQuery (s : Str) : Str := s.takeWhile (· ≠ '?')

/-- `strings.Contains` -/
def contains (needle : Str) : Str → Bool
  | [] => needle == []
  | c :: s => hasPrefix (c :: s) needle || contains needle s

end Go

namespace Sqddl
open Go

/-- What `os.Open` and the reads that follow do with a file name: oracle for the file system.
`unreadable` is a file that can be
opened but fails while being read. -/
inductive OpenResult
  | notExist
  | otherError
  | contents (s : Str)
  | unreadable

/-- /repo/ddl/ddl.go:938-958 `Driver`, the two fields NormalizeDSN looks at; `preprocess = none`
is a nil function. -/
structure DsnDriver where
  driverName : Str
  preprocess : Option (Str → Str)

/-- /repo/ddl/ddl.go:985-988, 1028-1031: the endings of SQLite file names. -/
def sqliteSuffix (s : Str) : Bool :=
  hasSuffix s b!".sqlite" || hasSuffix s b!".sqlite3" || hasSuffix s b!".db" || hasSuffix s b!".db3"

/-- /repo/ddl/ddl.go:1004: the header of an SQLite database file. -/
def sqliteHeader : Str := b!"SQLite format 3" ++ [Char.ofNat 0]

/-- /repo/ddl/ddl.go:982-1014: a `file:` URL.  `.error r`: NormalizeDSN returns `r` at once
(`none` for three empty strings); `.ok dsn`: it goes on with `dsn`. -/
def fileDsn (openFile : Str → OpenResult) (dsn : Str) :
    Except (Option (Dialect × Str × Str)) Str :=
  if hasPrefix dsn b!"file:" then
    let filename := beforeQuery (trimPrefix (trimPrefix dsn b!"file:") b!"//")
    match openFile filename with
    | .notExist => if sqliteSuffix filename then .error (some (.sqlite, b!"sqlite3", dsn)) else .error none
    | .otherError => .error none
    | .unreadable => .error none
    | .contents s =>
      if s.length < 16 then .error none
      else if s.take 16 = sqliteHeader then .ok (b!"sqlite:" ++ dsn)
      else .ok (trimSpace s)
  else .ok dsn

/-- /repo/ddl/ddl.go:1015-1035: the dialect of a URL; `none` is the `else` branch. -/
def dsnDialect (dsn : Str) : Option Dialect :=
  if hasPrefix dsn b!"sqlite:" || hasPrefix dsn b!"sqlite3:" then some .sqlite
  else if hasPrefix dsn b!"postgres://" then some .postgres
  else if hasPrefix dsn b!"mysql://" then some .mysql
  else if hasPrefix dsn b!"sqlserver://" then some .sqlserver
  else if hasPrefix dsn b!"oracle://" then some .oracle
  else if contains b!"@tcp(" dsn || contains b!"@unix(" dsn then some .mysql
  else if sqliteSuffix (beforeQuery dsn) then some .sqlite
  else none

/-- /repo/ddl/ddl.go:1043-1061: driver name and URL if no driver is registered. -/
def defaultDsn (d : Dialect) (dsn : Str) : Option (Dialect × Str × Str) :=
  match d with
  | .sqlite =>
    let tmp := if hasPrefix dsn b!"sqlite3:" then trimPrefix dsn b!"sqlite3:"
      else trimPrefix dsn b!"sqlite:"
    some (d, b!"sqlite3", trimPrefix tmp b!"//")
  | .postgres => some (d, b!"postgres", dsn)
  | .mysql => some (d, b!"mysql", trimPrefix dsn b!"mysql://")
  | .sqlserver => some (d, b!"sqlserver", dsn)
  | .oracle => some (d, b!"oracle", dsn)
  | .other => none

/-- /repo/ddl/ddl.go:981-1062 `NormalizeDSN`: dialect, driver name, URL; `none` for three empty
strings.  `drivers` is the registry (lines 960-976). -/
def normalizeDSN (openFile : Str → OpenResult) (drivers : Dialect → Option DsnDriver) (dsn : Str) :
    Option (Dialect × Str × Str) :=
  match fileDsn openFile dsn with
  | .error r => r
  | .ok dsn =>
    match dsnDialect dsn with
    | none => none
    | some d =>
      match drivers d with
      | some driver =>
        match driver.preprocess with
        | some f => some (d, driver.driverName, f dsn)
        | none => some (d, driver.driverName, dsn)
      | none => defaultDsn d dsn

/-- /repo/drivers/ddlsqlite3/ddlsqlite3.go:18-31, `PreprocessDSN` of the SQLite driver.  `query`
stands for lines 21-30 on the text behind the question mark (url.ParseQuery, the default for
_foreign_keys, Encode); `none` if url.ParseQuery fails. -/
def sqlite3Preprocess (query : Str → Option Str) (dsn : Str) : Str :=
  let dsn := trimPrefix (trimPrefix dsn b!"sqlite:") b!"//"
  let before := beforeQuery dsn
  match query (dsn.drop (before.length + 1)) with
  | none => dsn
  | some q => before ++ b!"?" ++ q

end Sqddl
