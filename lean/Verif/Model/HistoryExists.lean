import Verif.Model.HistoryText

/-!
# Whether the history table exists, and its creation
-/

namespace Sqddl.Migrate

/-- /repo/ddl/touch_cmd.go:194-244 `historyTableExists`: the query, with the name of the table as its only
parameter; `none` for a dialect that is not supported. -/
def existsText : Dialect → Option Str
  | .sqlite => some (b!"SELECT EXISTS" ++ b!" (SELECT 1" ++ b!" FROM sqlite_schema" ++ b!" WHERE type = 'table'" ++
      b!" AND tbl_name = $1)")
  | .postgres => some (b!"SELECT EXISTS" ++ b!" (SELECT 1" ++ b!" FROM pg_class AS tables" ++
      b!" JOIN pg_namespace AS schemas ON schemas.oid = tables.relnamespace" ++ b!" WHERE tables.relkind = 'r'" ++
      b!" AND schemas.nspname = current_schema()" ++ b!" AND tables.relname = $1)")
  | .mysql => some (b!"SELECT EXISTS" ++ b!" (SELECT 1" ++ b!" FROM information_schema.tables" ++
      b!" WHERE table_type = 'BASE TABLE'" ++ b!" AND table_schema = database()" ++ b!" AND table_name = ?)")
  | .sqlserver => some (b!"IF EXISTS" ++ b!" (SELECT 1" ++ b!" FROM sys.tables" ++
      b!" WHERE SCHEMA_NAME(schema_id) = SCHEMA_NAME()" ++ b!" AND name = @p1) SELECT 1 ELSE SELECT 0")
  | _ => none

/-- /repo/ddl/touch_cmd.go:194-244 `historyTableExists`.  `query` is the answer of the database to a text with
one parameter, `none` if it is an error. -/
def historyTableExists (d : Dialect) (query : Str → Str → Option Bool) (table : Str) : Option Bool :=
  (existsText d).bind fun q => query q table

/-- /repo/ddl/touch_cmd.go:246-280 `ensureHistoryTableExists`.  `query` is as above, `exec` the database after
a statement, `none` if it is an error. -/
def ensureHistoryTableExists {σ : Type} (d : Dialect) (query : σ → Str → Str → Option Bool) (exec : σ → Str → Option σ)
    (table : Str) (db : σ) : Option σ :=
  (historyTableExists d (query db) table).bind fun e => if e then some db else exec db (createText d table)

end Sqddl.Migrate
