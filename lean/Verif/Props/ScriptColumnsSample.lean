import Verif.Props.ScriptColumnsPostgres
import Verif.Props.ScriptColumnsSqlserver
import Verif.Props.ScriptRowsSample

/-!
# C112: columns that are reported, and some that are reported wrongly
-/

namespace Sqddl.Scripts
open OwnSpec ColumnSpec

/-- everything is asked for -/
def everyColumn : Filter := {}

/-! ## Postgres -/

/-- `varchar`, whose number is 1043, with the length that its modifier has -/
def sampleFormat (type : Nat) (mod : Int) : Str :=
  if type = 1043 then (if mod = 14 then b!"character varying(10)" else b!"character varying")
  else if type = 1700 then b!"numeric" else b!"integer"

/-- a table with a dropped column, a numeric one, one of a domain and one that is generated -/
def samplePgColumns : PgColInfo :=
  { namespaces := [⟨1, b!"public"⟩]
    classes := [⟨10, 1, b!"film", 'r'⟩, ⟨11, 1, b!"titles", 'v'⟩]
    cols := [⟨10, 4, b!"double", 23, -1, ' ', 's', false, false, 0⟩, ⟨10, 3, b!"code", 500, -1, ' ', ' ', true, false, 100⟩,
      ⟨10, 1, b!"price", 1700, 5 * 65536 + 2 + 4, ' ', ' ', false, false, 0⟩, ⟨10, 2, b!"old", 0, -1, ' ', ' ', false, true, 0⟩,
      ⟨10, -1, b!"ctid", 27, -1, ' ', ' ', true, false, 0⟩, ⟨11, 1, b!"title", 1043, -1, ' ', ' ', false, false, 100⟩]
    types := [⟨1043, b!"varchar", 'b', 0, -1⟩, ⟨1700, b!"numeric", 'b', 0, -1⟩, ⟨23, b!"int4", 'b', 0, -1⟩,
      ⟨500, b!"code", 'd', 1043, -1⟩]
    attrdefs := [⟨10, 4, b!"tree"⟩]
    collations := [⟨100, b!"default"⟩]
    formatType := sampleFormat
    expr := fun _ _ => b!"price * 2"
    description := fun t n => if t = 10 ∧ n = 1 then some b!"in euro" else none }

theorem samplePgColumns_valid : PgColValid samplePgColumns :=
  ⟨by decide, by decide, by decide, by decide, by decide, by decide, by decide, by decide, by decide⟩

example : OneOf everyColumn.schemas everyColumn.excludeSchemas ∧ OneOf everyColumn.tables everyColumn.excludeTables ∧
    (∀ n ∈ samplePgColumns.namespaces, PlainSchema n.nspname) ∧ PgColValid samplePgColumns ∧
    PlainDomains samplePgColumns ∧
    (pgColumns everyColumn samplePgColumns).map (fun x => (x.1, x.2.map fun r =>
      (r.columnName, r.columnType, r.domainName, r.numericScale, r.generatedExpr))) =
      [((b!"public", b!"film"), [(b!"price", b!"numeric", [], b!"2", []),
        (b!"code", b!"character varying", b!"code", [], []), (b!"double", b!"integer", [], [], b!"price * 2")])] := by
  refine ⟨oneOf_none, oneOf_none, ?_, samplePgColumns_valid, by unfold PlainDomains; decide, by rfl⟩
  intro n hn
  rw [List.mem_singleton.mp hn]
  unfold PlainSchema
  decide

/-- one column; the type with number 500 is `CREATE DOMAIN code AS varchar(10)` -/
def onePgColumn (type : Nat) (mod : Int) : PgColInfo :=
  { namespaces := [⟨1, b!"public"⟩]
    classes := [⟨10, 1, b!"film", 'r'⟩]
    cols := [⟨10, 1, b!"x", type, mod, ' ', ' ', false, false, 0⟩]
    types := [⟨1043, b!"varchar", 'b', 0, -1⟩, ⟨1700, b!"numeric", 'b', 0, -1⟩, ⟨500, b!"code", 'd', 1043, 14⟩]
    attrdefs := [], collations := [], formatType := sampleFormat, expr := fun _ _ => [], description := fun _ _ => none }

/-- C112: the length of a domain is lost: a column of a domain for varchar(10) is reported as varchar
without a length. -/
theorem pg_domain_length_refuted : ∃ c : PgColInfo, PgColValid c ∧
    (∃ a ∈ c.cols, ∃ x ∈ c.types, x.oid = a.atttypid ∧ x.typtype = 'd' ∧
      c.formatType x.typbasetype x.typtypmod = b!"character varying(10)") ∧
    (pgColumns everyColumn c).map (fun x => (x.1, x.2.map fun r => (r.columnName, r.columnType))) =
      [((b!"public", b!"film"), [(b!"x", b!"character varying")])] :=
  ⟨onePgColumn 500 (-1), ⟨by decide, by decide, by decide, by decide, by decide, by decide, by decide, by decide, by decide⟩, ⟨_, List.mem_singleton.mpr rfl, ⟨500, b!"code", 'd', 1043, 14⟩,
    by unfold onePgColumn; decide, rfl, rfl, rfl⟩, by rfl⟩

/-- C112: a negative scale is reported as another number: `numeric(5, -2)` has the scale 2046. -/
theorem pg_negative_scale_refuted : ∃ c : PgColInfo, PgColValid c ∧
    (∃ a ∈ c.cols, a.atttypid = 1700 ∧ a.atttypmod = numericMod 5 (-2)) ∧
    (pgColumns everyColumn c).map (fun x => (x.1, x.2.map fun r => (r.columnName, r.numericPrecision, r.numericScale))) =
      [((b!"public", b!"film"), [(b!"x", b!"5", b!"2046")])] :=
  ⟨onePgColumn 1700 (numericMod 5 (-2)), ⟨by decide, by decide, by decide, by decide, by decide, by decide, by decide, by decide, by decide⟩, ⟨_, List.mem_singleton.mpr rfl, rfl, rfl⟩, by rfl⟩

/-! ## MySQL -/

/-- a column with AUTO_INCREMENT -/
def sampleId : MyColumn :=
  ⟨b!"id", b!"int", none, some b!"10", some b!"0", true, true, none, none, none, none, false, false, b!"the key"⟩

/-- a column that is updated -/
def sampleStamp : MyColumn :=
  ⟨b!"at", b!"timestamp", none, none, none, false, true, some 0, none, none, some b!"CURRENT_TIMESTAMP", true, false, []⟩

/-- a generated column -/
def sampleSum : MyColumn :=
  ⟨b!"twice", b!"int", none, some b!"10", some b!"0", false, false, none, some (b!"(`id` * 2)", true), none, none, false,
    false, []⟩

/-- one table -/
def oneMyTable (cols : List MyColumn) : List MyTab := [⟨b!"shop", b!"film", b!"BASE TABLE", cols⟩]

/-- its row -/
def oneMyRow : List (Str × Str × Str) := [(b!"shop", b!"film", b!"BASE TABLE")]

/-- the rows of its columns -/
def oneMyCols (cols : List MyColumn) : List MyCol :=
  (cols.zipIdx 1).map (myColRow ⟨b!"shop", b!"film", b!"BASE TABLE", cols⟩)

theorem oneMyTable_shows (cols : List MyColumn) : MyColShows (oneMyTable cols) oneMyRow (oneMyCols cols) :=
  ⟨.refl _, .of_eq (by unfold oneMyTable oneMyCols; simp)⟩

theorem sampleMy_valid : MyColValid (oneMyTable [sampleId, sampleStamp, sampleSum]) :=
  ⟨by decide, by unfold oneMyTable; decide, by unfold oneMyTable; decide⟩

example : OneOf everyColumn.schemas everyColumn.excludeSchemas ∧ OneOf everyColumn.tables everyColumn.excludeTables ∧
    MyColShows (oneMyTable [sampleId, sampleStamp, sampleSum]) oneMyRow (oneMyCols [sampleId, sampleStamp, sampleSum]) ∧
    MyColValid (oneMyTable [sampleId, sampleStamp, sampleSum]) ∧
    PlainExtra (oneMyTable [sampleId, sampleStamp, sampleSum]) ∧
    (myColumns b!"utf8mb4_bin" everyColumn oneMyRow (oneMyCols [sampleId, sampleStamp, sampleSum])).map (fun x =>
      (x.1, x.2.map fun r =>
        (r.columnName, r.isAutoincrement, r.onUpdateCurrentTimestamp, r.generatedExprStored))) =
      [((b!"shop", b!"film"), [(b!"id", true, false, false), (b!"at", false, true, false),
        (b!"twice", false, false, true)])] := by
  refine ⟨oneOf_none, oneOf_none, oneMyTable_shows _, sampleMy_valid, ?_, by rfl⟩
  intro t ht k hk
  rw [List.mem_singleton.mp ht] at hk
  simp only [List.mem_cons, List.not_mem_nil, or_false] at hk
  rcases hk with rfl | rfl | rfl
  · exact ⟨rfl, fun n e => by cases e⟩
  · exact ⟨rfl, fun n e => by cases e; exact ⟨rfl, rfl⟩⟩
  · exact ⟨rfl, fun n e => by cases e⟩

/-- C112: ON UPDATE CURRENT_TIMESTAMP is lost if it has digits. -/
theorem mysql_on_update_refuted : ∃ db tables cols, MyColShows db tables cols ∧ MyColValid db ∧
    (∃ t ∈ db, ∃ k ∈ t.columns, k.onUpdate = some 3) ∧
    (myColumns b!"utf8mb4_bin" everyColumn tables cols).map (fun x =>
      (x.1, x.2.map fun r => (r.columnName, r.onUpdateCurrentTimestamp))) =
      [((b!"shop", b!"film"), [(b!"at", false)])] :=
  ⟨oneMyTable [{ sampleStamp with onUpdate := some 3 }], oneMyRow, oneMyCols [{ sampleStamp with onUpdate := some 3 }],
    oneMyTable_shows _, ⟨by decide, by unfold oneMyTable; decide, by unfold oneMyTable; decide⟩,
    ⟨_, List.mem_singleton.mpr rfl, _, List.mem_singleton.mpr rfl, rfl⟩, by rfl⟩

/-- C112: AUTO_INCREMENT is lost if the column is invisible. -/
theorem mysql_invisible_refuted : ∃ db tables cols, MyColShows db tables cols ∧ MyColValid db ∧
    (∃ t ∈ db, ∃ k ∈ t.columns, k.autoIncrement = true) ∧
    (myColumns b!"utf8mb4_bin" everyColumn tables cols).map (fun x =>
      (x.1, x.2.map fun r => (r.columnName, r.isAutoincrement))) =
      [((b!"shop", b!"film"), [(b!"id", false)])] :=
  ⟨oneMyTable [{ sampleId with invisible := true }], oneMyRow, oneMyCols [{ sampleId with invisible := true }],
    oneMyTable_shows _, ⟨by decide, by unfold oneMyTable; decide, by unfold oneMyTable; decide⟩,
    ⟨_, List.mem_singleton.mpr rfl, _, List.mem_singleton.mpr rfl, rfl⟩, by rfl⟩

/-- C112: a column whose default is the empty text is reported like one without a default. -/
theorem mysql_empty_default_refuted : ∃ db db' tables cols cols', MyColShows db tables cols ∧
    MyColShows db' tables cols' ∧ MyColValid db ∧ MyColValid db' ∧
    (∃ t ∈ db, ∃ k ∈ t.columns, k.default = some []) ∧ (∀ t ∈ db', ∀ k ∈ t.columns, k.default = none) ∧
    myColumns b!"utf8mb4_bin" everyColumn tables cols = myColumns b!"utf8mb4_bin" everyColumn tables cols' ∧
    myColumns b!"utf8mb4_bin" everyColumn tables cols ≠ [] :=
  ⟨oneMyTable [{ sampleId with autoIncrement := false, default := some [] }],
    oneMyTable [{ sampleId with autoIncrement := false }], oneMyRow,
    oneMyCols [{ sampleId with autoIncrement := false, default := some [] }],
    oneMyCols [{ sampleId with autoIncrement := false }], oneMyTable_shows _, oneMyTable_shows _,
    ⟨by decide, by unfold oneMyTable; decide, by unfold oneMyTable; decide⟩,
    ⟨by decide, by unfold oneMyTable; decide, by unfold oneMyTable; decide⟩,
    ⟨_, List.mem_singleton.mpr rfl, _, List.mem_singleton.mpr rfl, rfl⟩, by unfold oneMyTable; decide, by rfl,
    fun e => by cases e⟩

/-! ## SQL Server -/

/-- a key, a column of an alias type and a computed one -/
def sampleMsColumns : List MsColumnDef :=
  [⟨1, b!"id", .system 56 b!"int", none, 10, some 0, some (b!"100", b!"5"), false, none, none, none⟩,
    ⟨3, b!"code", .alias 300 b!"Code" 231 b!"nvarchar", some b!"10", 0, none, none, true, none, some b!"Latin1", none⟩,
    ⟨4, b!"twice", .system 56 b!"int", none, 10, some 0, none, true, some (b!"([id]*2)", true), none, none⟩]

/-- a table with them -/
def sampleMsTab : MsTabDef := ⟨7, b!"dbo", b!"film", sampleMsColumns⟩

/-- the rows -/
def sampleMsInfo : MsColInfo :=
  { tables := [⟨7, b!"dbo", b!"film"⟩]
    cols := (sampleMsColumns.zipIdx 1).map (msColRow sampleMsTab)
    types := [⟨56, b!"int"⟩, ⟨231, b!"nvarchar"⟩, ⟨300, b!"Code"⟩]
    identities := [(7, 1, b!"100", b!"5")]
    computed := [(7, 4, b!"([id]*2)", true)] }

theorem sampleMs_shows : MsColShows [sampleMsTab] sampleMsInfo := by
  refine ⟨.refl _, .of_eq rfl, .of_eq rfl, .of_eq rfl, ?_⟩
  intro t ht k hk
  rw [List.mem_singleton.mp ht] at hk
  simp only [sampleMsTab, sampleMsColumns, List.mem_cons, List.not_mem_nil, or_false] at hk
  rcases hk with rfl | rfl | rfl <;>
    refine ⟨fun id n e => ?_, fun id n b m e => ?_, fun id n e => ?_⟩ <;> cases e <;> decide

example : MsColPlain id (fun _ => False) [sampleMsTab] ∧ MsColShows [sampleMsTab] sampleMsInfo ∧
    MsColValid [sampleMsTab] sampleMsInfo ∧ NoClr [sampleMsTab] ∧
    (msColumns id b!"Finnish" everyColumn sampleMsInfo).map (fun x => (x.1, x.2.map fun r =>
      (r.columnName, r.columnType, r.columnIdentity, r.generatedExpr))) =
      [((b!"dbo", b!"film"), [(b!"id", b!"int", b!"IDENTITY(100, 5)", []), (b!"code", b!"nvarchar", [], []),
        (b!"twice", b!"int", [], b!"([id]*2)")])] := by
  refine ⟨?_, sampleMs_shows, ⟨by decide, by decide, by decide, by decide, by decide⟩, ?_, by rfl⟩
  · intro t ht
    rw [List.mem_singleton.mp ht]
    refine ⟨False.elim, ?_⟩
    unfold Longer
    decide
  · intro t ht k hk id n
    rw [List.mem_singleton.mp ht] at hk
    simp only [sampleMsTab, sampleMsColumns, List.mem_cons, List.not_mem_nil, or_false] at hk
    rcases hk with rfl | rfl | rfl <;> exact fun e => by cases e

/-- a table with a column of the type hierarchyid -/
def clrTab : MsTabDef :=
  ⟨7, b!"dbo", b!"tree", [⟨1, b!"node", .clr 128 b!"hierarchyid", some b!"892", 0, none, none, false, none, none, none⟩]⟩

/-- C112: a column with a .NET type like hierarchyid is reported with the name of its table as its
type. -/
theorem sqlserver_clr_refuted : ∃ db c, MsColShows db c ∧ MsColValid db c ∧
    (∃ t ∈ db, ∃ k ∈ t.columns, k.type = .clr 128 b!"hierarchyid") ∧
    (msColumns id b!"Finnish" everyColumn c).map (fun x => (x.1, x.2.map fun r => (r.columnName, r.columnType))) =
      [((b!"dbo", b!"tree"), [(b!"node", b!"tree")])] := by
  refine ⟨[clrTab], ⟨[⟨7, b!"dbo", b!"tree"⟩], (clrTab.columns.zipIdx 1).map (msColRow clrTab), [⟨128, b!"hierarchyid"⟩],
    [], []⟩, ⟨.refl _, .of_eq rfl, .of_eq rfl, .of_eq rfl, ?_⟩, ⟨by decide, by decide, by decide, by decide, by decide⟩,
    ⟨_, List.mem_singleton.mpr rfl, _, List.mem_singleton.mpr rfl, rfl⟩, by rfl⟩
  intro t ht k hk
  rw [List.mem_singleton.mp ht] at hk
  rw [List.mem_singleton.mp hk]
  refine ⟨fun id n e => ?_, fun id n b m e => ?_, fun id n e => ?_⟩ <;> cases e <;> decide

end Sqddl.Scripts
