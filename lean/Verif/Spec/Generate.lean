import Verif.Model.Generate

/-!
# What "nothing is changed" and "the files are written" mean

Independent of how the commands decide: an interpretation of their actions on a disk.
-/

namespace GenerateSpec
open Go Sqddl.Generate

/-- The contents of the files, by name. -/
abbrev Disk := Str → Option Str

/-- One action on the disk. -/
def onDisk (k : Disk) : Act → Disk
  | .openFile n => fun x => if x = n then some [] else k x
  | .writeFile n t => fun x => if x = n then some t else k x
  | _ => k

/-- The disk after some actions. -/
def diskAfter (k : Disk) (as : List Act) : Disk := as.foldl onDisk k

/-- The action changes the database. -/
def executes : Act → Bool
  | .migrate _ => true
  | _ => false

/-- What has been printed to standard output. -/
def printed (as : List Act) : Str := as.flatMap fun
  | .stdout s => s
  | _ => []

/-- The name of an undo script. -/
def isUndo (n : Str) : Prop := ∃ base, n = base ++ b!".undo.sql"

end GenerateSpec
