import Verif.Model.Quote

/-!
# `Sprintf`: arguments written into the text of a query

/repo/ddl/sq.go:360-492 and 679-732.  The Go loop ranges over the runes of the query, so here a `Char`
is a rune; the query is assumed to be valid UTF-8 (other bytes would be replaced by U+FFFD).
-/

namespace Sqddl.Sprintf
open Go

/-- An argument: the name of a `sql.NamedArg`, and what `Sprint` gives for it (`none`: an error). -/
structure Arg where
  name : Option Str := none
  literal : Option Str
deriving DecidableEq, Repr

/-- The result of `Sprintf`. The text that comes with an error is left out. -/
inductive Res
  | ok (s : Str)
  | error
  | panic
deriving DecidableEq, Repr

/-- /repo/ddl/sq.go:431: `_`, a letter or a digit. `hi` says which runes outside of ASCII are letters or
digits (`unicode.IsLetter`, `unicode.IsDigit`). -/
def word (hi : Char → Bool) (c : Char) : Bool :=
  c == '_' || Char.isAlpha c || Char.isDigit c || (decide (128 ≤ c.toNat) && hi c)

/-- `strconv.Atoi` on text without a sign, with 64 bits. -/
def atoi (s : Str) : Option Nat :=
  if s ≠ [] ∧ s.all Char.isDigit ∧ Nat.ofDigitChars 10 s 0 < 2 ^ 63 then some (Nat.ofDigitChars 10 s 0)
  else none

/-- `Sprint(dialect, arg)`. -/
def litOf : Option Arg → Res
  | none => .error
  | some a => a.literal.elim .error .ok

/-- /repo/ddl/sq.go:372-377, 719: the last argument with a name. -/
def lastNamed (args : List Arg) (n : Str) : Option Arg := args.reverse.find? (·.name = some n)

/-- /repo/ddl/sq.go:682-687: the part of a parameter that may be a number. -/
def maybeNum (d : Dialect) (p : Str) : Str :=
  if p.head? = some '@' ∧ d = .sqlserver ∧ (p[1]? = some 'p' ∨ p[1]? = some 'P') then p.drop 2
  else p.drop 1

/-- /repo/ddl/sq.go:681-732 `lookupParam`; `p` is the parameter with its first character. -/
def lookupParam (d : Dialect) (args : List Arg) (p : Str) (running : Nat) : Res :=
  if maybeNum d p = [] then
    if p.head? ≠ some '?' then .error
    else if running < args.length then litOf args[running]? else .panic
  else (atoi (maybeNum d p)).elim
    (if d = .postgres ∨ d = .mysql then .error else litOf (lastNamed args (p.drop 1)))
    fun n => if n = 0 then .error else litOf args[n - 1]?

/-- /repo/ddl/sq.go:378-382: the variables of the loop. `must` stands for `mustWriteCharAt` being the
current position. -/
structure St where
  out : Str := []
  running : Nat := 0
  must : Bool := false
  quote : Option Char := none
  param : Str := []
deriving DecidableEq, Repr

/-- /repo/ddl/sq.go:392-416: what ends a quoted text. -/
def closing (q : Char) : Char := if q = '[' then ']' else q

/-- /repo/ddl/sq.go:421. -/
def opens (d : Dialect) (c : Char) : Bool :=
  c == '\'' || c == '"' || (c == '`' && d == .mysql) || (c == '[' && d == .sqlserver)

/-- /repo/ddl/sq.go:448-450. -/
def startsParam (d : Dialect) (c : Char) : Bool :=
  (c == '$' && (d == .sqlite || d == .postgres)) || (c == ':' && d == .sqlite) ||
    (c == '@' && (d == .sqlite || d == .sqlserver))

/-- Continue with a literal. -/
def Res.next (r : Res) (f : Str → Except Res St) : Except Res St :=
  match r with
  | .ok s => f s
  | .error => .error .error
  | .panic => .error .panic

/-- /repo/ddl/sq.go:383-479: one round of the loop; `next` is the following rune. -/
def step (d : Dialect) (hi : Char → Bool) (args : List Arg) (c : Char) (next : Option Char) (st : St) :
    Except Res St :=
  if st.must then .ok { st with out := st.out ++ [c], must := false }
  else if st.quote.isSome then
    if some c = st.quote.map closing then
      if next = some c then .ok { st with out := st.out ++ [c], must := true }
      else .ok { st with out := st.out ++ [c], quote := none }
    else .ok { st with out := st.out ++ [c] }
  else if opens d c then .ok { st with out := st.out ++ [c], quote := some c }
  else if st.param ≠ [] then
    if word hi c then .ok { st with param := st.param ++ [c] }
    else (lookupParam d args st.param st.running).next fun v =>
      .ok { st with
        out := st.out ++ v ++ [c]
        running := if st.param = b!"?" then st.running + 1 else st.running
        param := [] }
  else if startsParam d c then .ok { st with param := [c] }
  else if c = '?' ∧ d ≠ .postgres then
    if d = .sqlite then .ok { st with param := [c] }
    else if args.length ≤ st.running then .error .error
    else (litOf args[st.running]?).next fun v =>
      .ok { st with out := st.out ++ v, running := st.running + 1 }
  else .ok { st with out := st.out ++ [c] }

/-- /repo/ddl/sq.go:481-491: after the loop. -/
def finish (d : Dialect) (args : List Arg) (st : St) : Res :=
  if st.param ≠ [] then
    match lookupParam d args st.param st.running with
    | .ok v => if st.quote.isSome then .error else .ok (st.out ++ v)
    | r => r
  else if st.quote.isSome then .error else .ok st.out

/-- /repo/ddl/sq.go:383-491: the loop. -/
def scan (d : Dialect) (hi : Char → Bool) (args : List Arg) : Str → St → Res
  | [], st => finish d args st
  | c :: r, st =>
    match step d hi args c r.head? st with
    | .ok st => scan d hi args r st
    | .error e => e

/-- /repo/ddl/sq.go:364-492 `Sprintf`. -/
def sprintf (d : Dialect) (hi : Char → Bool) (query : Str) (args : List Arg) : Res :=
  if args = [] then .ok query else scan d hi args query {}

end Sqddl.Sprintf
