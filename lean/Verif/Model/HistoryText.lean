import Verif.Model.History

/-!
# The texts of the statements on the history table

What `touch`, `migrate`, `ls`, `rm` and `mv` send to the database, and how the answer is scanned.
-/

namespace Sqddl.Migrate

/-- /repo/ddl/migrate_cmd.go:222-227, /repo/ddl/ls_cmd.go:156-161,249-254, /repo/ddl/rm_cmd.go:115-120,
/repo/ddl/mv_cmd.go:122-123: a file name as a literal. -/
def nameText (f : Str) : Str := b!"'" ++ escapeQuote '\'' f ++ b!"'"

/-- /repo/ddl/migrate_cmd.go:222-228, /repo/ddl/ls_cmd.go:156-162,249-255, /repo/ddl/rm_cmd.go:115-121: the
file names between the brackets. -/
def namesText (fs : List Str) : Str := Go.join b!", " (fs.map nameText)

/-- /repo/ddl/migrate_cmd.go:218-228, /repo/ddl/ls_cmd.go:152-162: the query for the rows of files. -/
def selectText (d : Dialect) (table : Str) (fs : List Str) : Str :=
  b!"SELECT filename, checksum, started_at, time_taken_ns, success FROM " ++ quoteIdentifier d table ++
  b!" WHERE filename IN (" ++ namesText fs ++ b!")"

/-- /repo/ddl/ls_cmd.go:245-256: the query for the rows without a file. -/
def missingText (d : Dialect) (table : Str) (fs : List Str) : Str :=
  b!"SELECT filename FROM " ++ quoteIdentifier d table ++ b!" WHERE filename NOT IN (" ++ namesText fs ++
  b!") ORDER BY CASE WHEN filename LIKE 'repeatable/%' THEN 1 ELSE 0 END, filename"

/-- /repo/ddl/rm_cmd.go:113-121: the DELETE of `rm`. -/
def deleteText (d : Dialect) (table : Str) (fs : List Str) : Str :=
  b!"DELETE FROM " ++ quoteIdentifier d table ++ b!" WHERE filename IN (" ++ namesText fs ++ b!")"

/-- /repo/ddl/mv_cmd.go:120-123: the UPDATE of `mv`. -/
def renameText (d : Dialect) (table src dest : Str) : Str :=
  b!"UPDATE " ++ quoteIdentifier d table ++ b!" SET filename = " ++ nameText dest ++ b!" WHERE filename = " ++
  nameText src

/-- /repo/ddl/touch_cmd.go:254-277: the statement that creates the table. -/
def createText (d : Dialect) (table : Str) : Str :=
  let pkey := if d = .mysql then b!"PRIMARY KEY (filename)" else b!"CONSTRAINT sqddl_filename_pkey PRIMARY KEY (filename)"
  let time := if d = .postgres then b!"TIMESTAMPTZ" else if d = .sqlserver then b!"DATETIMEOFFSET" else b!"DATETIME"
  let bool := if d = .sqlserver then b!"BIT" else b!"BOOLEAN"
  b!"CREATE TABLE " ++ quoteIdentifier d table ++ b!" (\n    filename VARCHAR(255) NOT NULL\n    ,checksum VARCHAR(64)\n    ,started_at " ++
  time ++ b!"\n    ,time_taken_ns BIGINT\n    ,success " ++ bool ++ b!"\n\n    ," ++ pkey ++ b!"\n)"

/-- How a driver turns the values of a row into those of Go: times and truth values. -/
structure Conv where
  time : Str → Nat
  truth : Str → Bool

/-- /repo/ddl/migrate_cmd.go:236-252, /repo/ddl/ls_cmd.go:169-186: one row is scanned; NULL becomes the
empty text, no time, or false.  `time_taken_ns` is left out. -/
def scanRow (cv : Conv) : List (Option Str) → Option (Str × Row)
  | [f, c, s, _, b] => some (f.getD [], ⟨c.getD [], s.map cv.time, (b.map cv.truth).getD false⟩)
  | _ => none

/-- /repo/ddl/migrate_cmd.go:235-254, /repo/ddl/ls_cmd.go:168-187: the rows that are known after the scan;
of several with the same name the last one counts. -/
def scanRows (cv : Conv) (ans : List (List (Option Str))) : History :=
  (ans.filterMap (scanRow cv)).foldl (fun h p => h.upsert p.1 p.2) fun _ => none

/-- /repo/ddl/touch_cmd.go:140-145, /repo/ddl/migrate_cmd.go:418-423,535-540: the batch insert into the
history table with this name. -/
def historyInsertInto (d : Dialect) (table : Str) : BatchInsert := { historyInsert d with table := table }

end Sqddl.Migrate
