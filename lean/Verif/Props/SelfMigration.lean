import Verif.Props.DiffSqlite
import Verif.Props.DiffAlter
import Verif.Props.Warnings
import Verif.Props.DiffSample
import Verif.Model.SqliteSql
import Verif.Model.SqlserverSql

/-!
# No files between equal schemas in SQL Server and SQLite (C33)
-/

namespace Sqddl
open Go CatalogSpec

/-- **C33**: the migration of a catalog to itself has no file and no warning (SQL Server), and making
it does not panic. -/
theorem sqlserver_self {c : Catalog} (hc : Ok c) (drop : Bool) (pre : Str) :
    Sqlserver.migration pre c c drop = some ([], []) := by
  unfold Sqlserver.migration
  rw [show mssqlEvents c c drop = diffEvents .sqlserver c c drop from rfl, diff_self (by simp [Server]) hc]
  rfl

example (drop : Bool) : Sqlserver.migration b!"20240101" Sample.src Sample.src drop = some ([], []) :=
  sqlserver_self Sample.src_ok drop _

/-- **C33**: the migration of a catalog to itself has no file (SQLite, which has no warnings), and
making it does not panic. -/
theorem sqlite_self {c : Catalog} (hc : Ok (sqliteNameConstraints c)) (drop : Bool) (pre : Str) :
    Sqlite.migration pre c c drop = some [] := by
  unfold Sqlite.migration
  rw [show sqliteEvents c c drop = diffEvents .sqlite c c drop from rfl, sqlite_diff_self hc]
  rfl

example (drop : Bool) : Sqlite.migration b!"20240101" Sample.src Sample.src drop = some [] :=
  sqlite_self (by decide +kernel) drop _

end Sqddl
