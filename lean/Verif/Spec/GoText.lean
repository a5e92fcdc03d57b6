import Verif.Model.StructText

/-!
# Go source with struct types

The tokens of Go, and files that declare struct types, as far as they are needed: a package clause, one
import, declarations of struct types whose fields have the types `x`, `x.y` or `struct{}`.  Comments and
all other syntax are refused.  Letters are those of ASCII.
-/

namespace GoText
open Go
open Sqddl.Structs (AstType AstField AstStruct)

/-- Letters, as the language counts them (with the underscore). -/
def Letter (c : Char) : Bool :=
  c == '_' || (decide ('a' ≤ c) && decide (c ≤ 'z')) || (decide ('A' ≤ c) && decide (c ≤ 'Z'))

/-- The keywords of Go. -/
def keywords : List Str :=
  [b!"break", b!"case", b!"chan", b!"const", b!"continue", b!"default", b!"defer", b!"else",
   b!"fallthrough", b!"for", b!"func", b!"go", b!"goto", b!"if", b!"import", b!"interface", b!"map",
   b!"package", b!"range", b!"return", b!"select", b!"struct", b!"switch", b!"type", b!"var"]

/-- An identifier. -/
def Ident (s : Str) : Prop :=
  s.head?.any Letter = true ∧ (∀ c ∈ s, (Letter c || isDigit c) = true) ∧ s ∉ keywords

instance (s : Str) : Decidable (Ident s) := by unfold Ident; infer_instance

/-- The tokens. -/
inductive Tok where
  /-- an identifier -/
  | word (s : Str)
  | kwType
  | kwStruct
  | kwPackage
  | kwImport
  /-- another keyword -/
  | keyword
  | dot
  | lbrace
  | rbrace
  /-- a string in backquotes -/
  | raw (s : Str)
  /-- a string in quotation marks -/
  | str (s : Str)
  /-- a semicolon, also one that a line break stands for -/
  | semi
deriving DecidableEq, Repr

/-- What a word is. -/
def wordTok (w : Str) : Tok :=
  if w = b!"type" then .kwType else if w = b!"struct" then .kwStruct
  else if w = b!"package" then .kwPackage else if w = b!"import" then .kwImport
  else if w ∈ keywords then .keyword else .word w

/-- Within which token the lexer is. -/
inductive Mode where
  | idle
  | word (s : Str)
  | raw (s : Str)
  | str (s : Str)
deriving DecidableEq, Repr

/-- The tokens so far, the last one first. -/
structure Lexer where
  toks : List Tok := []
  mode : Mode := .idle
deriving DecidableEq, Repr

/-- After these tokens a line break is a semicolon. -/
def endsLine : List Tok → Bool
  | .word _ :: _ => true
  | .raw _ :: _ => true
  | .str _ :: _ => true
  | .rbrace :: _ => true
  | _ => false

/-- The line break: a semicolon or nothing. -/
def newline (ts : List Tok) : List Tok := if endsLine ts then .semi :: ts else ts

/-- A character between tokens. -/
def between (ts : List Tok) (c : Char) : Option Lexer :=
  if Letter c then some ⟨ts, .word [c]⟩
  else if c = '`' then some ⟨ts, .raw []⟩
  else if c = '"' then some ⟨ts, .str []⟩
  else if c = '\n' then some ⟨newline ts, .idle⟩
  else if c = ' ' ∨ c = '\t' ∨ c = '\r' then some ⟨ts, .idle⟩
  else if c = '.' then some ⟨.dot :: ts, .idle⟩
  else if c = '{' then some ⟨.lbrace :: ts, .idle⟩
  else if c = '}' then some ⟨.rbrace :: ts, .idle⟩
  else if c = ';' then some ⟨.semi :: ts, .idle⟩
  else none

/-- The next character; a carriage return inside of backquotes is dropped. -/
def step (l : Lexer) (c : Char) : Option Lexer :=
  match l.mode with
  | .idle => between l.toks c
  | .word w => if Letter c || isDigit c then some ⟨l.toks, .word (w ++ [c])⟩ else between (wordTok w :: l.toks) c
  | .raw s =>
    if c = '`' then some ⟨.raw s :: l.toks, .idle⟩
    else if c = '\r' then some l else some ⟨l.toks, .raw (s ++ [c])⟩
  | .str s =>
    if c = '"' then some ⟨.str s :: l.toks, .idle⟩
    else if c = '\\' ∨ c = '\n' then none else some ⟨l.toks, .str (s ++ [c])⟩

/-- The end of the file. -/
def finish (l : Lexer) : Option (List Tok) :=
  match l.mode with
  | .idle => some (newline l.toks).reverse
  | .word w => some (newline (wordTok w :: l.toks)).reverse
  | _ => none

/-- The tokens of a text. -/
def lex (s : Str) : Option (List Tok) := (s.foldlM step {}).bind finish

/-- The fields of a struct up to the closing brace, and the tokens after it. -/
def fields : List Tok → Option (List AstField × List Tok)
  | .rbrace :: rest => some ([], rest)
  | .word x :: .dot :: .word y :: .semi :: rest =>
    (fields rest).map fun r => (⟨[], .sel x y, none⟩ :: r.1, r.2)
  | .word x :: .dot :: .word y :: .raw t :: .semi :: rest =>
    (fields rest).map fun r => (⟨[], .sel x y, some t⟩ :: r.1, r.2)
  | .word n :: .word x :: .dot :: .word y :: .semi :: rest =>
    (fields rest).map fun r => (⟨n, .sel x y, none⟩ :: r.1, r.2)
  | .word n :: .word x :: .dot :: .word y :: .raw t :: .semi :: rest =>
    (fields rest).map fun r => (⟨n, .sel x y, some t⟩ :: r.1, r.2)
  | .word n :: .kwStruct :: .lbrace :: .rbrace :: .semi :: rest =>
    (fields rest).map fun r => (⟨n, .emptyStruct, none⟩ :: r.1, r.2)
  | .word n :: .kwStruct :: .lbrace :: .rbrace :: .raw t :: .semi :: rest =>
    (fields rest).map fun r => (⟨n, .emptyStruct, some t⟩ :: r.1, r.2)
  | .word n :: .word x :: .semi :: rest =>
    (fields rest).map fun r => (⟨n, .ident x, none⟩ :: r.1, r.2)
  | .word n :: .word x :: .raw t :: .semi :: rest =>
    (fields rest).map fun r => (⟨n, .ident x, some t⟩ :: r.1, r.2)
  | .word x :: .semi :: rest =>
    (fields rest).map fun r => (⟨[], .ident x, none⟩ :: r.1, r.2)
  | .word x :: .raw t :: .semi :: rest =>
    (fields rest).map fun r => (⟨[], .ident x, some t⟩ :: r.1, r.2)
  | _ => none

/-- The declarations of a file; their number is bounded by that of the tokens. -/
def decls : Nat → List Tok → Option (List AstStruct)
  | _, [] => some []
  | n + 1, .kwType :: .word x :: .kwStruct :: .lbrace :: rest =>
    (fields rest).bind fun r =>
      match r.2 with
      | .semi :: rest => (decls n rest).map (⟨x, r.1⟩ :: ·)
      | _ => none
  | _, _ => none

/-- The struct types of a file given by its tokens. -/
def fileOf : List Tok → Option (List AstStruct)
  | .kwPackage :: .word _ :: .semi :: .kwImport :: .str _ :: .semi :: rest => decls rest.length rest
  | _ => none

/-- The struct types of a file. -/
def file (text : Str) : Option (List AstStruct) := (lex text).bind fileOf

/-- Texts that differ in white space only, as a text and the result of gofmt. -/
def SameTokens (a b : Str) : Prop := lex a = lex b

/-- No two struct types of a file have the same name, and no two fields of a struct (the blank one
aside): the compiler refuses these. -/
def NoRedeclared (ss : List AstStruct) : Prop :=
  (ss.map (·.name)).Nodup ∧ ∀ s ∈ ss, ((s.fields.map (·.name)).filter (· ≠ b!"_")).Nodup

instance (ss : List AstStruct) : Decidable (NoRedeclared ss) := by unfold NoRedeclared; infer_instance

end GoText
