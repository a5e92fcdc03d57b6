import Verif.Basic

/-!
# Command lines: what a user writes and what it means

The flags are those of the usage texts (`sqddl <subcommand> -h`) and of /repo/sqddl.md.
-/

namespace LineSpec

/-- What a flag takes. -/
inductive Takes
  | switch
  | number
  | text
deriving DecidableEq, Repr

/-- The words for yes and no. -/
def yesNo : List Str :=
  [b!"1", b!"0", b!"t", b!"f", b!"T", b!"F", b!"true", b!"false", b!"TRUE", b!"FALSE", b!"True",
   b!"False"]

/-- A value that a flag can have. -/
def Fits (isInt : Str → Bool) : Takes → Str → Prop
  | .switch, v => v ∈ yesNo
  | .number, v => isInt v = true
  | .text, _ => True

/-- The kind of a flag in a table of flags. -/
def kindIn (table : List (Str × Takes)) (name : Str) : Option Takes :=
  (table.find? (fun x => x.1 == name)).map (·.2)

/-- One or two dashes. -/
def dashes (two : Bool) : Str := if two then b!"--" else b!"-"

/-- `Writes table ss l`: the arguments `l` are a way of writing the settings `ss`. -/
inductive Writes (isInt : Str → Bool) (table : List (Str × Takes)) :
    List (Str × Str) → List Str → Prop
  | nil : Writes isInt table [] []
  | apart {ss l} (two : Bool) (n v : Str) (k : Takes) (hk : kindIn table n = some k)
      (hs : k ≠ .switch) (hv : Fits isInt k v) (h : Writes isInt table ss l) :
      Writes isInt table ((n, v) :: ss) ((dashes two ++ n) :: v :: l)
  | joined {ss l} (two : Bool) (n v : Str) (k : Takes) (hk : kindIn table n = some k)
      (hv : Fits isInt k v) (h : Writes isInt table ss l) :
      Writes isInt table ((n, v) :: ss) ((dashes two ++ n ++ b!"=" ++ v) :: l)
  | bare {ss l} (two : Bool) (n : Str) (hk : kindIn table n = some .switch)
      (h : Writes isInt table ss l) :
      Writes isInt table ((n, b!"true") :: ss) ((dashes two ++ n) :: l)

/-- An argument that cannot be taken for a flag: it does not begin with a dash, or it is a single
dash. -/
def Operand (s : Str) : Prop := s = b!"-" ∨ s.head? ≠ some '-'

/-- File names at the end of a command line: the first is not taken for a flag, or they come
behind a double dash. -/
def Names (written names : List Str) : Prop :=
  (written = names ∧ ∀ s, names.head? = some s → Operand s) ∨ written = b!"--" :: names

/-- /repo/sqddl.md:51-53: the flags that may stand in front of the subcommand. -/
def globals : List (Str × Takes) := [(b!"db", .text), (b!"history-table", .text)]

/-- The flags of every subcommand; all take the two global ones. -/
def own : List (Str × List (Str × Takes)) :=
  [(b!"migrate", [(b!"dir", .text), (b!"lock-timeout", .text), (b!"max-attempts", .number),
      (b!"max-delay", .text), (b!"base-delay", .text), (b!"verbose", .switch),
      (b!"skip-history-table", .switch)]),
   (b!"ls", [(b!"dir", .text), (b!"pending", .switch), (b!"applied", .switch),
      (b!"failed", .switch), (b!"missing", .switch), (b!"all", .switch)]),
   (b!"touch", [(b!"dir", .text)]),
   (b!"rm", [(b!"dir", .text)]),
   (b!"mv", [(b!"dir", .text)]),
   (b!"tables", [(b!"pkg", .text), (b!"file", .text), (b!"schema-qualified-structs", .switch),
      (b!"schemas", .text), (b!"exclude-schemas", .text), (b!"tables", .text),
      (b!"exclude-tables", .text)]),
   (b!"views", [(b!"pkg", .text), (b!"file", .text), (b!"schemas", .text),
      (b!"exclude-schemas", .text), (b!"views", .text), (b!"exclude-views", .text)]),
   (b!"generate", [(b!"src", .text), (b!"dest", .text), (b!"output-dir", .text),
      (b!"prefix", .text), (b!"drop-objects", .switch), (b!"dialect", .text),
      (b!"accept-warnings", .switch), (b!"dry-run", .switch)]),
   (b!"wipe", [(b!"dry-run", .switch)]),
   (b!"dump", [(b!"output-dir", .text), (b!"zip", .text), (b!"tgz", .text),
      (b!"schema-only", .switch), (b!"data-only", .switch), (b!"nullstring", .text),
      (b!"binaryprefix", .text), (b!"schemas", .text), (b!"exclude-schemas", .text),
      (b!"tables", .text), (b!"exclude-tables", .text), (b!"subset", .text),
      (b!"extended-subset", .text), (b!"array-as-json", .switch), (b!"uuid-as-bytes", .switch)]),
   (b!"load", [(b!"dir", .text), (b!"nullstring", .text), (b!"binaryprefix", .text),
      (b!"batchsize", .number), (b!"no-nullstring", .switch), (b!"no-binaryprefix", .switch),
      (b!"verbose", .switch), (b!"timestamp-as-integer", .switch)]),
   (b!"automigrate", [(b!"dir", .text), (b!"dest", .text), (b!"drop-objects", .switch),
      (b!"accept-warnings", .switch), (b!"dry-run", .switch), (b!"lock-timeout", .text),
      (b!"max-attempts", .number), (b!"max-delay", .text), (b!"base-delay", .text)])]

/-- The names of the subcommands. -/
def subcommands : List Str := own.map (·.1)

/-- The flags of a subcommand. -/
def flagsFor (sub : Str) : List (Str × Takes) :=
  globals ++ ((own.find? (fun x => x.1 == sub)).map (·.2)).getD []

/-- The defaults in the usage texts. -/
def defaults : List (Str × Str) :=
  [(b!"history-table", b!"sqddl_history"), (b!"lock-timeout", b!"1s"), (b!"max-attempts", b!"10"),
   (b!"max-delay", b!"5m"), (b!"base-delay", b!"1s"), (b!"nullstring", b!"\\N"),
   (b!"binaryprefix", b!"0x"), (b!"batchsize", b!"1000"), (b!"pkg", b!"_")]

/-- `wipe` and `views` have no use for the name of the history table. -/
def unused (sub n : Str) : Bool := (sub == b!"wipe" || sub == b!"views") && n == b!"history-table"

/-- The default of a flag: the one in the usage text, or no for a switch, or nothing. -/
def defaultOf (sub n : Str) : Str :=
  match defaults.find? (fun x => x.1 == n) with
  | some x => x.2
  | none => if kindIn (flagsFor sub) n = some .switch then b!"false" else b!""

/-- All settings of a flag. -/
def settingsOf (n : Str) (ss : List (Str × Str)) : List Str :=
  (ss.filter (fun x => x.1 == n)).map (·.2)

/-- The last setting of a flag. -/
def lastOf (n : Str) (ss : List (Str × Str)) : Option Str := (settingsOf n ss).getLast?

/-- What a flag is set to. -/
def meant (sub : Str) (ss : List (Str × Str)) (n : Str) : Str := (lastOf n ss).getD (defaultOf sub n)

/-- `Line args sub ss names`: the command line gives the subcommand `sub` with the settings `ss`
and the file names `names`.  Global flags may stand in front of the subcommand; if a flag is set
many times the later setting is later in `ss`. -/
def Line (isInt : Str → Bool) (args : List Str) (sub : Str) (ss : List (Str × Str))
    (names : List Str) : Prop :=
  ∃ g gs l ls w, Writes isInt globals gs g ∧ Writes isInt (flagsFor sub) ls l ∧ Names w names ∧
    args = g ++ sub :: (l ++ w) ∧ ss = gs ++ ls

/-- The subcommands that take file names. -/
def takesNames (sub : Str) : Bool :=
  sub == b!"migrate" || sub == b!"touch" || sub == b!"rm" || sub == b!"load"

/-- The file names a subcommand works with: all, two for `mv`, none for the others. -/
def namesFor (sub : Str) (names : List Str) : List Str :=
  if takesNames sub then names else if sub = b!"mv" then names.take 2 else []

/-- A request for help. -/
def AsksHelp (s : Str) : Prop :=
  ∃ two v, s = dashes two ++ b!"h" ∨ s = dashes two ++ b!"help" ∨
    s = dashes two ++ b!"h=" ++ v ∨ s = dashes two ++ b!"help=" ++ v

end LineSpec
