import Verif.Model.Dsn

/-!
# The database URLs that the drivers get: `PreprocessDSN` in /repo/drivers

Go's package net/url is modelled where the code uses it: `ParseQuery`, `Values` and `Encode`.
`url.Parse` is a parameter that gives the parts of a URL.
-/

namespace Go

/-- The characters that `url.QueryEscape` keeps (`q.Encode`, /repo/drivers/ddlpgx/ddlpgx.go:35). -/
def keptInQuery (c : Char) : Bool :=
  ('a' ≤ c && c ≤ 'z') || ('A' ≤ c && c ≤ 'Z') || ('0' ≤ c && c ≤ '9') ||
    c == '-' || c == '_' || c == '.' || c == '~'

/-- one digit of `upperhex` (`q.Encode`, /repo/drivers/ddlpgx/ddlpgx.go:35) -/
def upperHex (n : Nat) : Char := (b!"0123456789ABCDEF")[n]?.getD '0'

/-- `url.QueryEscape` (`q.Encode`, /repo/drivers/ddlpgx/ddlpgx.go:35). -/
def queryEscape : Str → Str
  | [] => []
  | c :: r =>
    (if c = ' ' then b!"+" else if keptInQuery c then [c]
      else ['%', upperHex (c.toNat / 16), upperHex (c.toNat % 16)]) ++ queryEscape r

/-- the value of a hexadecimal digit (`url.ParseQuery`, /repo/drivers/ddlpgx/ddlpgx.go:28) -/
def unhex (c : Char) : Option Nat :=
  if '0' ≤ c ∧ c ≤ '9' then some (c.toNat - 48)
  else if 'a' ≤ c ∧ c ≤ 'f' then some (c.toNat - 87)
  else if 'A' ≤ c ∧ c ≤ 'F' then some (c.toNat - 55)
  else none

/-- `url.QueryUnescape`; `none` is an error (`url.ParseQuery`, /repo/drivers/ddlpgx/ddlpgx.go:28). -/
def queryUnescape : Str → Option Str
  | [] => some []
  | '%' :: a :: b :: r =>
    match unhex a, unhex b, queryUnescape r with
    | some x, some y, some r => some (Char.ofNat (x * 16 + y) :: r)
    | _, _, _ => none
  | c :: r =>
    if c = '%' then none
    else (queryUnescape r).map ((if c = '+' then ' ' else c) :: ·)

/-- One part of a query, between `&` (`url.ParseQuery`, /repo/drivers/ddlpgx/ddlpgx.go:28): `none` is
an error, `some none` an empty part. -/
def queryPart (key : Str) : Option (Option (Str × Str)) :=
  if ';' ∈ key then none
  else if key = [] then some none
  else
    let name := key.takeWhile (· ≠ '=')
    match queryUnescape name, queryUnescape (key.drop (name.length + 1)) with
    | some k, some v => some (some (k, v))
    | _, _ => none

/-- `url.ParseQuery` (/repo/drivers/ddlpgx/ddlpgx.go:28): the values in the order of the text, `none`
if an error is returned. -/
def parseQuery (query : Str) : Option (List (Str × Str)) :=
  if h : query = [] then some []
  else
    let key := query.takeWhile (· ≠ '&')
    match queryPart key, parseQuery (query.drop (key.length + 1)) with
    | some (some x), some ps => some (x :: ps)
    | some none, some ps => some ps
    | _, _ => none
termination_by query.length
decreasing_by
  have : 0 < query.length := by cases query with
    | nil => exact absurd rfl h
    | cons c r => simp
  simp only [List.length_drop]; omega

/-- `q.Has` (/repo/drivers/ddlpgx/ddlpgx.go:32) -/
def qHas (ps : List (Str × Str)) (k : Str) : Bool := ps.any (fun x => x.1 == k)

/-- `q.Set` (/repo/drivers/ddlpgx/ddlpgx.go:33) -/
def qSet (ps : List (Str × Str)) (k v : Str) : List (Str × Str) :=
  ps.filter (fun x => x.1 != k) ++ [(k, v)]

/-- `if !q.Has(k) { q.Set(k, v) }` (/repo/drivers/ddlpgx/ddlpgx.go:32-34) -/
def qDefault (ps : List (Str × Str)) (k v : Str) : List (Str × Str) :=
  if qHas ps k then ps else qSet ps k v

/-- `<` of Go strings (the order of `q.Encode`, /repo/drivers/ddlpgx/ddlpgx.go:35) -/
def strLt : Str → Str → Bool
  | _, [] => false
  | [], _ :: _ => true
  | a :: r, b :: s => a < b || (a == b && strLt r s)

/-- A key is put into the sorted keys, in front of the first that is greater (`q.Encode`,
/repo/drivers/ddlpgx/ddlpgx.go:35). -/
def insertSorted (k : Str) : List Str → List Str
  | [] => [k]
  | x :: r => if strLt k x then k :: x :: r else x :: insertSorted k r

/-- The sorted keys (`q.Encode`, /repo/drivers/ddlpgx/ddlpgx.go:35). -/
def sortedKeys (ps : List (Str × Str)) : List Str := 
  ps.foldr (fun x ks => if ks.contains x.1 then ks else insertSorted x.1 ks) []

/-- `q.Encode` (/repo/drivers/ddlpgx/ddlpgx.go:35): keys in their order, the values of a key as they
were added. -/
def encodeQuery (ps : List (Str × Str)) : Str :=
  join b!"&" (((sortedKeys ps).flatMap (fun k => ps.filter (fun x => x.1 == k))).map
    (fun x => queryEscape x.1 ++ b!"=" ++ queryEscape x.2))

end Go

namespace Sqddl
open Go

/-- `before, after, _ := strings.Cut(dsn, "?")`, the parameters, and the text put together again
(/repo/drivers/ddlpgx/ddlpgx.go:27-35): `change` is what is set in between. -/
def withQuery (dsn : Str) (change : List (Str × Str) → List (Str × Str)) : Str :=
  let before := beforeQuery dsn
  match parseQuery (dsn.drop (before.length + 1)) with
  | none => dsn
  | some ps => before ++ b!"?" ++ encodeQuery (change ps)

/-- /repo/drivers/ddlpgx/ddlpgx.go:26-36, /repo/drivers/ddlpostgres/ddlpostgres.go:27-37 -/
def pgPreprocess (dsn : Str) : Str := withQuery dsn (fun q => qDefault q b!"sslmode" b!"disable")

/-- /repo/drivers/ddlsqlite3/ddlsqlite3.go:18-29 -/
def litePreprocess (dsn : Str) : Str :=
  withQuery (trimPrefix (trimPrefix dsn b!"sqlite:") b!"//")
    (fun q => if !qHas q b!"_foreign_keys" && !qHas q b!"_fk" then qSet q b!"_foreign_keys" b!"true" else q)

/-- The parts of a URL that `url.Parse` gives, without escapes (/repo/drivers/ddlmysql/ddlmysql.go:27,
/repo/drivers/ddlsqlserver/ddlsqlserver.go:29); the scheme and the fragment are not used. -/
structure Url where
  user : Option (Str × Option Str)
  host : Str
  path : Str
  rawQuery : Str
deriving DecidableEq, Repr

/-- The user and the password (/repo/drivers/ddlmysql/ddlmysql.go:33-40). -/
def credText (u : Url) : Str :=
  match u.user with
  | none => []
  | some (name, none) => name
  | some (name, some password) => name ++ b!":" ++ password

/-- /repo/drivers/ddlmysql/ddlmysql.go:31-51 -/
def mysqlText (u : Url) : Str :=
  let cred := credText u
  let at_ := if u.host = [] then [] else
    (if cred = [] then [] else b!"@") ++ b!"tcp(" ++ u.host ++ b!")"
  cred ++ at_ ++ b!"/" ++ trimPrefix u.path b!"/" ++
    (if u.rawQuery = [] then [] else b!"?" ++ u.rawQuery)

/-- /repo/drivers/ddlmysql/ddlmysql.go:25-68; `parse` is `url.Parse`. -/
def mysqlPreprocess (parse : Str → Option Url) (dsn : Str) : Str :=
  let dsn := if hasPrefix dsn b!"mysql://" then
      match parse dsn with
      | none => trimPrefix dsn b!"mysql://"
      | some u => mysqlText u
    else dsn
  withQuery dsn (fun q => qDefault (qDefault (qDefault q b!"allowAllFiles" b!"true")
    b!"multiStatements" b!"true") b!"parseTime" b!"true")

/-- /repo/drivers/ddlsqlserver/ddlsqlserver.go:28-43; `parse` is `url.Parse`. -/
def mssqlPreprocess (parse : Str → Option Url) (dsn : Str) : Str :=
  match parse dsn with
  | none => dsn
  | some u =>
    if u.path = [] then dsn
    else
      let before := beforeQuery dsn
      match parseQuery (dsn.drop (before.length + 1)) with
      | none => dsn
      | some ps => trimSuffix before u.path ++ b!"?" ++ encodeQuery (qSet ps b!"database" (u.path.drop 1))

/-- The drivers that the program registers (/repo/main.go:17-23) with their names and functions
(/repo/drivers/ddlsqlite3/ddlsqlite3.go:15-17, /repo/drivers/ddlpgx/ddlpgx.go:16-18,
/repo/drivers/ddlmysql/ddlmysql.go:16-18, /repo/drivers/ddlsqlserver/ddlsqlserver.go:18-20,
/repo/drivers/ddloracle/ddloracle.go:14-16 and 23-25). -/
def mainDrivers (parse : Str → Option Url) : Dialect → Option DsnDriver
  | .sqlite => some ⟨b!"sqlite3", some litePreprocess⟩
  | .postgres => some ⟨b!"pgx", some pgPreprocess⟩
  | .mysql => some ⟨b!"mysql", some (mysqlPreprocess parse)⟩
  | .sqlserver => some ⟨b!"sqlserver", some (mssqlPreprocess parse)⟩
  | .oracle => some ⟨b!"oracle", some id⟩
  | .other => none

end Sqddl
