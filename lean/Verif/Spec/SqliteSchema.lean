import Verif.Spec.SqliteRows
import Verif.Spec.Ddl

/-!
# What SQLite statements do to the schema of a database

Independent of the model, as in the manual of SQLite; the rows are left out (Verif.Spec.SqliteRows has
them), and indexes are part of the state.  Names are compared without regard to case.  SQLite may
refuse statements that are accepted here, for instance because of the rows.
-/

namespace LiteSchema
open SqlSpec Sqddl LiteText DdlSpec
open LiteSpec (fold key findCol inCon colsOf consOf)
open DdlText hiding Stmt readStmt runScript Rule

/-- A table. -/
structure Shape where
  cols : List Col
  cons : List Con
deriving DecidableEq, Repr

/-- The schema of a database: tables, and indexes with the table they belong to, by folded name. -/
structure Sch where
  table : Str → Option Shape
  index : Str → Option (Str × Idx)

/-- The map with another value. -/
def put {α : Type} (f : Str → Option α) (n : Str) (v : Option α) : Str → Option α :=
  fun m => if m = n then v else f m

/-- The indexes without those of a table. -/
def without (f : Str → Option (Str × Idx)) (t : Str) : Str → Option (Str × Idx) :=
  fun m => (f m).filter fun p => p.1 != t

/-! ## Statements -/

/-- The table after the table `n` has been renamed to `m`. -/
def Shape.rename (n m : Str) (t : Shape) : Shape where
  cols := t.cols.map fun c => { c with ref := c.ref.map (LiteSpec.Ref.rename n m) }
  cons := t.cons.map fun c => { c with kind :=
    match c.kind with
    | .foreign cols ref => .foreign cols (LiteSpec.Ref.rename n m ref)
    | k => k }

/-- What a statement does; `fk`: foreign keys are enforced, so that renaming a table changes the
references to it. -/
def effect (fk : Bool) (db : Sch) : Stmt → Option Sch
  | .pragma _ _ => some db
  | .createTable n xs =>
    if (db.table (key n)).isNone ∧ ((colsOf xs).map fun c => fold c.name).Nodup then
      some ⟨put db.table (key n) (some ⟨colsOf xs, consOf xs⟩), without db.index (key n)⟩
    else none
  | .dropTable n =>
    if (db.table (key n)).isSome then
      some ⟨put db.table (key n) none, without db.index (key n)⟩
    else none
  | .createIndex x =>
    x.table.bind fun t =>
      if (db.table (key t)).isSome ∧ (db.index (fold x.name)).isNone then
        some ⟨db.table, put db.index (fold x.name) (some (key t, x))⟩
      else none
  | .dropIndex n =>
    if (db.index (key n)).isSome then some ⟨db.table, put db.index (key n) none⟩ else none
  | .addColumn n c =>
    (db.table (key n)).bind fun t =>
      if (findCol t.cols (fold c.name)).isSome ∨ c.primary = true ∨ c.unique = true then none
      else some ⟨put db.table (key n) (some { t with cols := t.cols ++ [c] }), db.index⟩
  | .dropColumn n c =>
    (db.table (key n)).bind fun t =>
      (findCol t.cols (fold c)).bind fun x =>
        if x.primary = true ∨ x.unique = true ∨ t.cons.any (inCon (fold c)) = true then none
        else some ⟨put db.table (key n) (some { t with
          cols := t.cols.filter fun y => fold y.name ≠ fold c }), db.index⟩
  | .renameTable n m =>
    (db.table (key n)).bind fun t =>
      if (db.table (fold m)).isNone then
        some ⟨fun u => (put (put db.table (key n) none) (fold m) (some t) u).map
            (if fk then Shape.rename (key n) m else id),
          fun i => (without db.index (fold m) i).map fun p =>
            if p.1 = key n then (fold m, { p.2 with table := some (n.1, m) }) else p⟩
      else none
  | .copyRows n _ _ m => if (db.table (key n)).isSome ∧ (db.table (key m)).isSome then some db else none

/-- Runs a script; `none` if a statement fails. -/
def run (fk : Bool) : Sch → List Stmt → Option Sch
  | db, [] => some db
  | db, st :: sts => (effect fk db st).bind fun db => run fk db sts

/-! ## What the schema says -/

/-- A constraint without its name. -/
structure Rule where
  kind : ConKind
  deferrable : Bool
  initiallyDeferred : Bool
deriving DecidableEq, Repr

/-- The column without the constraints that are written behind it. -/
def bare (c : Col) : Col :=
  { c with primary := false, unique := false, ref := none, deferrable := false,
           initiallyDeferred := false }

/-- The constraints that are written behind a column. -/
def colRules (c : Col) : List Rule :=
  (if c.primary then [⟨.primary [c.name], false, false⟩] else []) ++
  (if c.unique then [⟨.unique [c.name], false, false⟩] else []) ++
  (c.ref.map fun r => ⟨.foreign [c.name] { r with table := full [] r.table }, c.deferrable,
    c.initiallyDeferred⟩).toList

/-- A constraint of CREATE TABLE. -/
def conRule (c : Con) : Rule := ⟨c.kind, c.deferrable, c.initiallyDeferred⟩

/-- The constraints of a table; it does not matter where they are written. -/
def Shape.rules (t : Shape) : List Rule := t.cols.flatMap colRules ++ t.cons.map conRule

/-- The table does not reference the table `n`. -/
def Shape.free (n : Str) (T : Shape) : Prop :=
  (∀ c ∈ T.cols, ∀ r, c.ref = some r → key r.table ≠ n) ∧
  ∀ c ∈ T.cons, ∀ cols r, c.kind = .foreign cols r → key r.table ≠ n

/-! ## What a catalog says -/

/-- The constraint that a catalog constraint stands for. -/
def ruleOf (c : Constraint) : Rule := conRule (conOf .sqlite [] c)

/-- The columns that the catalog has. -/
def colsOfTable (t : Table) : List Col := (CatalogSpec.liveColumns t).map (colOf .sqlite [] false)

/-- The index that a catalog index stands for. -/
def idxOfIndex (x : Index) : Idx := (idxOf .sqlite [] false false x).resolve []

/-- The table of the database is that of the catalog.  The order of the columns does not matter. -/
structure Shows (T : Shape) (t : Table) : Prop where
  names : (T.cols.map fun c => fold c.name).Nodup
  cols : ∀ n, (findCol T.cols n).map bare = (findCol (colsOfTable t) n).map bare
  rules : ∀ r, r ∈ T.rules ↔ ∃ c ∈ CatalogSpec.liveConstraints t, ruleOf c = r

/-- The second column says the same as the first as far as type, default and NOT NULL are
concerned. -/
structure Unchanged (a b : Column) : Prop where
  type : a.columnType = b.columnType
  default : SameDefault .sqlite (Go.trimSpace a.columnDefault) (Go.trimSpace b.columnDefault)
  notNull : a.isNotNull = b.isNotNull

/-- The table of the database is that of the destination, except that columns of the source are kept
that are `Unchanged`; `old` is the table of the source. -/
structure Reached (old : Option Table) (T : Shape) (t : Table) : Prop where
  names : (T.cols.map fun c => fold c.name).Nodup
  cols : ∀ n, (findCol T.cols n).map bare = (findCol (colsOfTable t) n).map bare ∨
    ∃ s ∈ old, ∃ a ∈ CatalogSpec.liveColumns s, ∃ b ∈ CatalogSpec.liveColumns t,
      a.columnName = b.columnName ∧ fold b.columnName = n ∧ Unchanged a b ∧
      (findCol T.cols n).map bare = some (bare (colOf .sqlite [] false a))
  rules : ∀ r, r ∈ T.rules ↔ ∃ c ∈ CatalogSpec.liveConstraints t, ruleOf c = r

/-- The indexes of a table are these. -/
def IndexesAre (db : Sch) (t : Table) (xs : List Index) : Prop :=
  ∀ n x, db.index n = some (fold t.tableName, x) ↔
    ∃ y ∈ xs, fold y.indexName = n ∧ idxOfIndex y = x

/-- The database has the table of the catalog, with its indexes. -/
def Holds (db : Sch) (t : Table) : Prop :=
  ∃ T, db.table (fold t.tableName) = some T ∧ Shows T t ∧ IndexesAre db t (CatalogSpec.liveIndexes t)

/-- The table `n` and its indexes are the same in both databases. -/
def SameTable (db db' : Sch) (n : Str) : Prop :=
  db'.table n = db.table n ∧ ∀ T, db.table n = some T →
    ∀ i x, db'.index i = some (n, x) ↔ db.index i = some (n, x)

/-- The table is described twice in the same way: what is said about the constraint of one column in
the column agrees with the constraints, as the documentation of the catalog demands; constraints
mention columns of the table, and indexes their table. -/
structure Whole (t : Table) : Prop where
  names : ((CatalogSpec.liveColumns t).map fun c => fold c.columnName).Nodup
  primary : ∀ c ∈ CatalogSpec.liveColumns t, (c.isPrimaryKey = true ↔
    ∃ k ∈ CatalogSpec.liveConstraints t, k.constraintType = b!"PRIMARY KEY" ∧
      k.columns = [c.columnName])
  keys : ∀ k ∈ CatalogSpec.liveConstraints t, k.constraintType = b!"PRIMARY KEY" →
    k.columns.length = 1 → k.isDeferrable = false
  refs : ∀ c ∈ CatalogSpec.liveColumns t, ∀ r,
    r ∈ colRules { bare (colOf .sqlite [] true c) with
      ref := (colOf .sqlite [] true c).ref
      deferrable := (colOf .sqlite [] true c).deferrable
      initiallyDeferred := (colOf .sqlite [] true c).initiallyDeferred } ↔
    ∃ k ∈ CatalogSpec.liveConstraints t, k.constraintType = b!"FOREIGN KEY" ∧
      k.columns = [c.columnName] ∧ ruleOf k = r
  columns : ∀ k ∈ CatalogSpec.liveConstraints t, ∀ n ∈ k.columns, CatalogSpec.hasColumn t n = true
  indexes : ∀ x ∈ t.indexes, x.ignore = false ∧ x.tableSchema = [] ∧ x.tableName = t.tableName

end LiteSchema
