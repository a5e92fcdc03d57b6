import Verif.Basic

/-!
# What a database URL says

The query of a URL (application/x-www-form-urlencoded), and the database URLs of the MySQL driver.
-/

namespace UrlSpec

/-- the value of a hexadecimal digit -/
def hexValue (c : Char) : Option Nat :=
  (b!"0123456789abcdef").idxOf? (Go.lowerC c)

/-- A text with escapes: `%` and two digits is a byte, `+` is a blank. -/
def unescape : Str → Option Str
  | [] => some []
  | c :: r =>
    if c = '%' then
      match r with
      | a :: b :: r => do
        let x ← hexValue a
        let y ← hexValue b
        let s ← unescape r
        return Char.ofNat (16 * x + y) :: s
      | _ => none
    else do
      let s ← unescape r
      return (if c = '+' then ' ' else c) :: s

/-- Split a text at every occurrence of a character. -/
def splitAt (sep : Char) : Str → List Str
  | [] => [[]]
  | c :: r =>
    if c = sep then [] :: splitAt sep r
    else match splitAt sep r with
      | [] => [[c]]
      | x :: xs => (c :: x) :: xs

/-- A name and a value: what stands in front of the first `=` and behind it.  A semicolon is not
allowed. -/
def readPair (s : Str) : Option (Str × Str) := do
  if ';' ∈ s then none
  let k ← unescape (s.takeWhile (· ≠ '='))
  let v ← unescape ((s.dropWhile (· ≠ '=')).drop 1)
  return (k, v)

/-- The parameters of a query; empty parts do not count. -/
def readQuery (s : Str) : Option (List (Str × Str)) :=
  ((splitAt '&' s).filter (fun p => !p.isEmpty)).mapM readPair

/-- The values of a parameter. -/
def valuesOf (k : Str) (ps : List (Str × Str)) : List Str :=
  (ps.filter (fun x => x.1 == k)).map (·.2)

/-- The same parameters with a default for those that are not set. -/
def WithDefaults (defaults : List (Str × Str)) (ps ps' : List (Str × Str)) : Prop :=
  ∀ k, valuesOf k ps' = if valuesOf k ps = [] then valuesOf k defaults else valuesOf k ps

/-- What the URL of a MySQL database says: `[user[:password]@][net[(addr)]]/db[?query]`. -/
structure MysqlDsn where
  user : Str
  password : Str
  net : Str
  addr : Str
  db : Str
  query : Str
deriving DecidableEq, Repr

/-- The text in front of the last occurrence of a character and behind it. -/
def cutLast (c : Char) (s : Str) : Option (Str × Str) :=
  if c ∈ s then
    some ((((s.reverse.dropWhile (· ≠ c)).drop 1).reverse), (s.reverse.takeWhile (· ≠ c)).reverse)
  else none

/-- The text in front of the first occurrence of a character and behind it. -/
def cutFirst (c : Char) (s : Str) : Str × Str :=
  (s.takeWhile (· ≠ c), (s.dropWhile (· ≠ c)).drop 1)

/-- The reader of github.com/go-sql-driver/mysql: the last slash ends the address, the last `@` in
front of it ends the user, the first colon ends the user name; an address is in brackets. -/
def readMysql (s : Str) : Option MysqlDsn := do
  let (left, right) ← cutLast '/' s
  let (cred, place) := (cutLast '@' left).getD ([], left)
  let (user, password) := cutFirst ':' cred
  let (net, rest) := cutFirst '(' place
  let (db, query) := cutFirst '?' right
  if '(' ∈ place then
    if rest.getLast? = some ')' then some ⟨user, password, net, rest.dropLast, db, query⟩ else none
  else some ⟨user, password, net, [], db, query⟩

end UrlSpec
