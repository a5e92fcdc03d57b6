import Verif.Spec.SqliteText

/-!
# What SQLite statements do to the rows of a database

Independent of the model, as in the manual of SQLite.  Names of tables and columns are compared
without regard to case.  Indexes, triggers and views are not part of the state.  `World.accepts` lets
SQLite refuse any statement, for instance because a row breaks a constraint; `World.store`
converts a value to the affinity of a column.  Renaming a table is done with `legacy_alter_table`
on: references are changed only if foreign keys are enforced.
-/

namespace LiteSpec
open SqlSpec Sqddl LiteText
open DdlText hiding Stmt readStmt runScript

/-- How a name is looked up. -/
def fold (n : Str) : Str := Go.toLower n

/-- How a table is looked up. -/
def key (n : Name) : Str := fold n.2

/-- A row: the values of the columns, by folded name. -/
abbrev Row (V : Type) := Str → V

/-- A table. -/
structure Tbl (V : Type) where
  cols : List Col
  cons : List Con
  rows : List (Row V)

/-- A database: the tables by folded name. -/
abbrev Db (V : Type) := Str → Option (Tbl V)

/-- What is left open. -/
structure World (V : Type) where
  null : V
  /-- the value that a column takes when a value is stored in it -/
  store : Col → V → V
  /-- the value of a column that is given none: the default, the value of a generated column, the
  next number -/
  absent : List Col → Row V → Col → V
  /-- the order in which the rows of a table are read -/
  scan : List (Row V) → List (Row V)
  scan_perm : ∀ rs, (scan rs).Perm rs
  /-- whether the statement is accepted -/
  accepts : Db V → Stmt → Bool

/-- The database with another table. -/
def Db.put {V : Type} (db : Db V) (n : Str) (t : Option (Tbl V)) : Db V :=
  fun m => if m = n then t else db m

/-- The column with this folded name. -/
def findCol (cols : List Col) (n : Str) : Option Col := cols.find? fun c => fold c.name == n

/-- The foreign keys of a table: the columns and what they reference. -/
def Tbl.fkeys {V : Type} (t : Tbl V) : List (List Str × Ref) :=
  t.cols.filterMap (fun c => c.ref.map fun r => ([c.name], r)) ++
  t.cons.filterMap fun c =>
    match c.kind with
    | .foreign cols ref => some (cols, ref)
    | _ => none

/-! ## Deleting the rows of a table -/

/-- The row `child` references the row `parent`; a NULL references nothing. -/
def Refers {V : Type} (w : World V) (cols : List Str) (ref : Ref) (child parent : Row V) : Prop :=
  ∀ p ∈ cols.zip ref.cols, child (fold p.1) = parent (fold p.2) ∧ child (fold p.1) ≠ w.null

/-- The rows that are deleted with the rows of the table `t`: ON DELETE CASCADE. -/
inductive Gone {V : Type} (w : World V) (db : Db V) (t : Str) : Str → Row V → Prop
  | own (T : Tbl V) (r : Row V) : db t = some T → r ∈ T.rows → Gone w db t t r
  | cascade (u : Str) (U : Tbl V) (r : Row V) (cols : List Str) (ref : Ref) (parent : Row V) :
      db u = some U → r ∈ U.rows → (cols, ref) ∈ U.fkeys → ref.onDelete = .cascade →
      Gone w db t (key ref.table) parent → Refers w cols ref r parent → Gone w db t u r

/-- A row of `U` loses a referenced row, and the rule is `rule`. -/
def Loses {V : Type} (w : World V) (db : Db V) (t : Str) (U : Tbl V) (rule : Rule) (r : Row V)
    (cols : List Str) : Prop :=
  ∃ ref parent, (cols, ref) ∈ U.fkeys ∧ ref.onDelete = rule ∧
    Gone w db t (key ref.table) parent ∧ Refers w cols ref r parent

/-- A rule forbids to delete the rows of `t`. -/
def Blocked {V : Type} (w : World V) (db : Db V) (t : Str) : Prop :=
  ∃ u U r cols, db u = some U ∧ r ∈ U.rows ∧
    (Loses w db t U .restrict r cols ∨ Loses w db t U .noAction r cols ∧ ¬ Gone w db t u r)

open Classical in
/-- SET NULL and SET DEFAULT. -/
noncomputable def unlink {V : Type} (w : World V) (db : Db V) (t : Str) (U : Tbl V) (r : Row V) :
    Row V := fun n =>
  if ∃ cols, Loses w db t U .setNull r cols ∧ n ∈ cols.map fold then w.null
  else if ∃ cols, Loses w db t U .setDefault r cols ∧ n ∈ cols.map fold then
    ((findCol U.cols n).map (w.absent U.cols r)).getD w.null
  else r n

open Classical in
/-- The database after all rows of `t` have been deleted. -/
noncomputable def deleteAll {V : Type} (w : World V) (db : Db V) (t : Str) : Db V := fun u =>
  (db u).map fun U =>
    { U with rows := (U.rows.filter fun r => decide (¬ Gone w db t u r)).map (unlink w db t U) }

/-! ## Statements -/

/-- The reference after a table has been renamed. -/
def Ref.rename (n m : Str) (r : Ref) : Ref :=
  if key r.table = n then { r with table := (r.table.1, m) } else r

/-- The table after a table has been renamed. -/
def Tbl.rename {V : Type} (n m : Str) (t : Tbl V) : Tbl V where
  cols := t.cols.map fun c => { c with ref := c.ref.map (Ref.rename n m) }
  cons := t.cons.map fun c => { c with kind :=
    match c.kind with
    | .foreign cols ref => .foreign cols (Ref.rename n m ref)
    | k => k }
  rows := t.rows

/-- The values given for the columns. -/
def given {V : Type} (cols vals : List Str) (r : Row V) (n : Str) : Option V :=
  ((cols.zip vals).find? fun p => fold p.1 == n).map fun p => r (fold p.2)

/-- The row that is inserted into a table with the columns `tc`. -/
def newRow {V : Type} (w : World V) (tc : List Col) (cols vals : List Str) (r : Row V) : Row V :=
  fun n =>
    match findCol tc n with
    | none => w.null
    | some c =>
      match given cols vals r n with
      | some v => w.store c v
      | none => w.absent tc r c

/-- A column that a statement may set. -/
def settable (tc : List Col) (n : Str) : Bool :=
  (findCol tc (fold n)).any fun c => c.generated.isNone

/-- A constraint of the table that mentions the column. -/
def inCon (n : Str) (c : Con) : Bool :=
  match c.kind with
  | .primary cols | .unique cols | .foreign cols _ => (cols.map fold).contains n
  | _ => false

/-- The columns of CREATE TABLE. -/
def colsOf (xs : List Item) : List Col :=
  xs.filterMap fun x => match x with
    | .col c => some c
    | .con _ => none

/-- The constraints of CREATE TABLE. -/
def consOf (xs : List Item) : List Con :=
  xs.filterMap fun x => match x with
    | .con c => some c
    | .col _ => none

/-- What a statement does; `fk`: foreign keys are enforced (PRAGMA foreign_keys). -/
noncomputable def effect {V : Type} (w : World V) (fk : Bool) (db : Db V) : Stmt → Option (Db V)
  | .pragma _ _ => some db
  | .createIndex _ => some db
  | .dropIndex _ => some db
  | .createTable n xs =>
    match db (key n) with
    | some _ => none
    | none => some (db.put (key n) (some ⟨colsOf xs, consOf xs, []⟩))
  | .dropTable n =>
    match db (key n) with
    | none => none
    | some _ =>
      if fk = true then
        open Classical in
        if Blocked w db (key n) then none
        else some ((deleteAll w db (key n)).put (key n) none)
      else some (db.put (key n) none)
  | .addColumn n c =>
    match db (key n) with
    | none => none
    | some t =>
      if (findCol t.cols (fold c.name)).isSome ∨ c.primary = true ∨ c.unique = true then none
      else some (db.put (key n) (some { t with
        cols := t.cols ++ [c]
        rows := t.rows.map fun r m =>
          if m = fold c.name then w.absent (t.cols ++ [c]) r c else r m }))
  | .dropColumn n c =>
    match db (key n) with
    | none => none
    | some t =>
      match findCol t.cols (fold c) with
      | none => none
      | some x =>
        if x.primary = true ∨ x.unique = true ∨ t.cons.any (inCon (fold c)) = true then none
        else some (db.put (key n) (some { t with
          cols := t.cols.filter fun y => fold y.name ≠ fold c }))
  | .renameTable n m =>
    match db (key n), db (fold m) with
    | some t, none =>
      some (if fk = true then
        fun u => ((db.put (key n) none).put (fold m) (some t) u).map (Tbl.rename (key n) m)
      else (db.put (key n) none).put (fold m) (some t))
    | _, _ => none
  | .copyRows n cols vals m =>
    match db (key n), db (key m) with
    | some t, some s =>
      if cols.length = vals.length ∧ (cols.map fold).Nodup ∧ cols.all (settable t.cols) = true ∧
          vals.all (fun v => (findCol s.cols (fold v)).isSome) = true then
        some (db.put (key n) (some { t with
          rows := t.rows ++ (w.scan s.rows).map (newRow w t.cols cols vals) }))
      else none
    | _, _ => none

/-- Runs a statement; `none` if it fails. -/
noncomputable def exec {V : Type} (w : World V) (fk : Bool) (db : Db V) (st : Stmt) :
    Option (Db V) := if w.accepts db st = true then effect w fk db st else none

/-- Runs a script; `none` if a statement fails. -/
noncomputable def run {V : Type} (w : World V) (fk : Bool) : Db V → List Stmt → Option (Db V)
  | db, [] => some db
  | db, st :: sts => (exec w fk db st).bind fun db => run w fk db sts

/-! ## Keeping the rows -/

/-- `T'` has the rows of `T`, in some order, each with its values in the columns `common`, converted
at most to the affinity of the column in `T'`. -/
def Kept {V : Type} (w : World V) (T T' : Tbl V) (common : Str → Prop) : Prop :=
  ∃ (f : Row V → Row V) (rs : List (Row V)), rs.Perm T.rows ∧ T'.rows = rs.map f ∧
    ∀ n, common n → ∃ c, findCol T'.cols (fold n) = some c ∧ ∀ r ∈ T.rows,
      f r (fold n) = r (fold n) ∨ f r (fold n) = w.store c (r (fold n))

/-- A table of a catalog references the table with the folded name `n`. -/
def References (t : Table) (n : Str) : Prop :=
  (∃ c ∈ CatalogSpec.liveConstraints t, c.constraintType = b!"FOREIGN KEY" ∧
    fold c.referencesTable = n) ∨
  ∃ c ∈ CatalogSpec.liveColumns t, ∃ r, refOf c = some r ∧ fold r.table.2 = n

/-- The columns that a table of the source and one of the destination have in common. -/
def Common (src dest : Table) (n : Str) : Prop :=
  (∃ c ∈ src.columns, c.columnName = n) ∧
  ∃ c ∈ CatalogSpec.liveColumns dest, c.columnName = n ∧ c.isGenerated = false ∧
    c.generatedExpr = []

/-- A table that a script drops or renames. -/
def Doomed (sts : List Stmt) (n : Str) : Prop :=
  ∃ m : Name, fold m.2 = n ∧ (.dropTable m ∈ sts ∨ ∃ k, .renameTable m k ∈ sts)

/-- No table of the database but itself references a table that the script drops or renames. -/
def Unreferenced {V : Type} (sts : List Stmt) (db : Db V) : Prop :=
  ∀ u U f, db u = some U → f ∈ U.fkeys → Doomed sts (key f.2.table) → u = key f.2.table

/-- The table of the database has the columns of the catalog, whose names differ. -/
structure Described {V : Type} (T : Tbl V) (t : Table) : Prop where
  columns : ∀ c ∈ t.columns, (findCol T.cols (fold c.columnName)).isSome
  names : (t.columns.map fun c => fold c.columnName).Nodup

end LiteSpec
