import Verif.Basic
import Verif.Model.Keywords
import Verif.Model.Quote
import Verif.Model.Files
import Verif.Model.Migrate
import Verif.Model.BatchInsert
import Verif.Model.History
import Verif.Model.Ddl
import Verif.Model.Modifier
import Verif.Model.Dsn
import Verif.Model.PqArray
import Verif.Spec.Sql
import Verif.Spec.Files
import Verif.Spec.Migrate
import Verif.Spec.Batch
import Verif.Spec.History
import Verif.Spec.Ddl
import Verif.Spec.TypeParts
import Verif.Lemmas.Quote
import Verif.Lemmas.Migrate
import Verif.Lemmas.MigrateRun
import Verif.Lemmas.MigrateTrace
import Verif.Props.Quote
import Verif.Props.Sprint
import Verif.Props.Files
import Verif.Props.Migrate
import Verif.Props.MigrateAgain
import Verif.Props.Batch
import Verif.Props.History
import Verif.Props.Ls
import Verif.Props.Ddl
import Verif.Props.Types
import Verif.Props.TypeArgs
import Verif.Props.Modifier
import Verif.Props.Dsn
import Verif.Props.PqArray
import Verif.Model.Catalog
import Verif.Model.Diff
import Verif.Spec.Catalog
import Verif.Lemmas.Cache
import Verif.Lemmas.Diff
import Verif.Props.DiffSample
import Verif.Props.Diff
import Verif.Props.DiffAlter
import Verif.Props.DiffSqlite
import Verif.Spec.Lex
import Verif.Lemmas.Lex
import Verif.Model.Wipe
import Verif.Spec.Wipe
import Verif.Props.Wipe
import Verif.Model.Generate
import Verif.Spec.Generate
import Verif.Props.Generate
import Verif.Model.Session
import Verif.Spec.Session
import Verif.Props.Session
import Verif.Model.Load
import Verif.Spec.Load
import Verif.Props.Load
import Verif.Model.Sprintf
import Verif.Spec.Sprintf
import Verif.Props.Sprintf
import Verif.Model.Subset
import Verif.Spec.Subset
import Verif.Props.Subset
import Verif.Props.SubsetLimits
import Verif.Props.SubsetTemplate
import Verif.Model.CacheOps
import Verif.Spec.CacheOps
import Verif.Lemmas.CacheOps
import Verif.Props.CacheOps
import Verif.Props.CacheLatest
import Verif.Model.WriteCatalog
import Verif.Props.WriteCatalog
import Verif.Model.Render
import Verif.Model.MigrationFiles
import Verif.Model.MysqlSql
import Verif.Spec.DdlText
import Verif.Lemmas.Piece
import Verif.Lemmas.DdlText
import Verif.Lemmas.DdlRead
import Verif.Spec.Fragment
import Verif.Spec.DdlMeaning
import Verif.Lemmas.Fragment
import Verif.Props.RenderColumn
import Verif.Lemmas.DdlCon
import Verif.Props.RenderConstraint
import Verif.Props.RenderIndex
import Verif.Lemmas.DdlStmt
import Verif.Spec.DdlStmt
import Verif.Props.RenderStmt
import Verif.Spec.DdlAlter
import Verif.Props.RenderAlter
import Verif.Props.MysqlScript
import Verif.Spec.Engine
import Verif.Lemmas.Engine
import Verif.Lemmas.EnginePlan
import Verif.Spec.Converge
import Verif.Lemmas.Converge
import Verif.Props.MysqlConverges
import Verif.Props.FileOrder
import Verif.Props.MysqlMigrates
import Verif.Props.MysqlSample
import Verif.Props.MysqlRefuted
import Verif.Props.RenderSample
import Verif.Lemmas.DdlDecide
import Verif.Lemmas.DdlIdx
import Verif.Model.PostgresSql
import Verif.Spec.TypeChange
import Verif.Props.Warnings
import Verif.Props.MysqlFkeys
import Verif.Spec.PgText
import Verif.Lemmas.PgRead
import Verif.Lemmas.FkGroups
import Verif.Props.PgScript
import Verif.Props.PgAlter
import Verif.Props.PgPlan
import Verif.Props.PgFiles
import Verif.Lemmas.PgDecide
import Verif.Props.PgSample
import Verif.Spec.PgFkeys
import Verif.Props.PgFkeys
import Verif.Spec.PgEngine
import Verif.Lemmas.PgEngine
import Verif.Spec.PgColumns
import Verif.Lemmas.PgColumns
import Verif.Props.PgColumns
import Verif.Props.PgColumnsSample
import Verif.Model.SqliteSql
import Verif.Spec.SqliteText
import Verif.Spec.SqliteRows
import Verif.Lemmas.SqliteRead
import Verif.Props.SqliteScript
import Verif.Lemmas.SqliteRows
import Verif.Props.SqliteKeeps
import Verif.Props.SqliteSample
import Verif.Model.Csv
import Verif.Model.DumpCsv
import Verif.Spec.Csv
import Verif.Spec.CsvValues
import Verif.Lemmas.CsvValues
import Verif.Props.Csv
import Verif.Props.CsvValues
import Verif.Props.CsvLosses
import Verif.Spec.SqliteSchema
import Verif.Lemmas.SqliteSchema
import Verif.Props.SqliteConverges
import Verif.Props.SqliteConvergesSample
import Verif.Props.SqliteGrows
import Verif.Props.SqliteTriggers
import Verif.Spec.SqliteAccepts
import Verif.Props.SqliteAccepts
import Verif.Props.SqliteAcceptsSample
import Verif.Props.WarningsLocks
import Verif.Spec.PgConverge
import Verif.Lemmas.PgPhases
import Verif.Lemmas.PgSteps
import Verif.Lemmas.PgAlterTable
import Verif.Lemmas.PgAlterRuns
import Verif.Lemmas.PgReached
import Verif.Props.PgConverges
import Verif.Spec.PgExpress
import Verif.Props.PgMigrates
import Verif.Lemmas.PgConvergeDecide
import Verif.Props.PgConvergesSample
import Verif.Props.PgRefuted
import Verif.Model.TableStructs
import Verif.Model.StructParser
import Verif.Spec.Structs
import Verif.Lemmas.StructRead
import Verif.Lemmas.StructForm
import Verif.Lemmas.StructText
import Verif.Lemmas.StructState
import Verif.Lemmas.StructKeys
import Verif.Lemmas.StructFkeys
import Verif.Lemmas.StructColumn
import Verif.Lemmas.StructField
import Verif.Lemmas.StructTable
import Verif.Lemmas.StructChecks
import Verif.Lemmas.StructCatalog
import Verif.Lemmas.StructWrite
import Verif.Lemmas.StructSame
import Verif.Lemmas.StructCheck
import Verif.Props.Structs
import Verif.Model.Sprint
import Verif.Spec.Literal
import Verif.Lemmas.Literal
import Verif.Props.Literal
import Verif.Model.SubsetQuery
import Verif.Spec.SubsetQuery
import Verif.Props.SubsetQuery
import Verif.Model.SqlserverSql
import Verif.Spec.MsText
import Verif.Spec.MsFkeys
import Verif.Lemmas.MsRead
import Verif.Lemmas.MsDecide
import Verif.Lemmas.MsFkeys
import Verif.Props.MsScript
import Verif.Props.MsPlan
import Verif.Props.MsSample
import Verif.Props.MsFkeys
import Verif.Spec.MsEngine
import Verif.Spec.MsConverge
import Verif.Spec.MsExpress
import Verif.Lemmas.MsSteps
import Verif.Lemmas.MsPhases
import Verif.Lemmas.MsColumns
import Verif.Lemmas.MsLists
import Verif.Lemmas.MsTable
import Verif.Lemmas.MsTableRuns
import Verif.Lemmas.MsGoal
import Verif.Lemmas.MsRedo
import Verif.Props.MsConverges
import Verif.Lemmas.MsConvergeDecide
import Verif.Props.MsConvergesSample
import Verif.Props.MsRefuted
import Verif.Props.MsMigrates
import Verif.Props.MsMigratesSample
import Verif.Model.IntrospectRows
import Verif.Model.Introspect
import Verif.Spec.Introspect
import Verif.Lemmas.Introspect
import Verif.Lemmas.IntrospectSteps
import Verif.Lemmas.IntrospectMark
import Verif.Props.Introspect
import Verif.Props.IntrospectRows
import Verif.Props.IntrospectText
import Verif.Props.IntrospectKeeps
import Verif.Model.StructText
import Verif.Spec.GoText
import Verif.Spec.StructFile
import Verif.Lemmas.GoText
import Verif.Lemmas.StructFile
import Verif.Props.StructFile
import Verif.Props.ViewFile
import Verif.Model.LoadParallel
import Verif.Model.DumpParallel
import Verif.Model.MigrateParallel
import Verif.Spec.LoadParallel
import Verif.Spec.DumpParallel
import Verif.Spec.MigrateParallel
import Verif.Props.LoadParallel
import Verif.Props.DumpParallel
import Verif.Props.MigrateParallel
import Verif.Model.Dump
import Verif.Spec.Dump
import Verif.Lemmas.DumpParts
import Verif.Lemmas.DumpRuns
import Verif.Lemmas.DumpText
import Verif.Lemmas.DumpOrder
import Verif.Lemmas.DumpCatalog
import Verif.Lemmas.DumpDecide
import Verif.Props.DumpLoads
import Verif.Props.DumpLoadsSample
import Verif.Spec.DumpArchive
import Verif.Props.DumpArchive
import Verif.Spec.DumpQuery
import Verif.Props.DumpQuery
import Verif.Spec.DumpTypes
import Verif.Lemmas.DumpTypes
import Verif.Props.DumpTypes
import Verif.Props.DumpTypesSample
import Verif.Spec.JsonText
import Verif.Model.Json
import Verif.Lemmas.Json
import Verif.Model.CatalogJson
import Verif.Spec.CatalogTexts
import Verif.Lemmas.CatalogJson
import Verif.Model.GenerateSource
import Verif.Props.CatalogJson
import Verif.Props.CatalogJsonSample
import Verif.Spec.SqliteDump
import Verif.Props.DumpSqlite
import Verif.Props.DumpSqliteSample
import Verif.Props.SelfMigration
import Verif.Model.SubsetText
import Verif.Spec.SubsetText
import Verif.Lemmas.SubsetText
import Verif.Lemmas.SubsetRead
import Verif.Lemmas.SubsetMeaning
import Verif.Lemmas.SubsetCalls
import Verif.Props.SubsetText
import Verif.Props.SubsetFields
import Verif.Props.SubsetTextSample
import Verif.Spec.InsertText
import Verif.Lemmas.InsertText
import Verif.Lemmas.InsertRead
import Verif.Lemmas.InsertRun
import Verif.Props.InsertText
import Verif.Props.InsertTextSample
import Verif.Model.HistoryText
import Verif.Spec.HistoryText
import Verif.Lemmas.HistoryText
import Verif.Props.HistoryText
import Verif.Props.HistoryTextSample
import Verif.Model.HistoryExists
import Verif.Spec.HistoryExists
import Verif.Props.HistoryExists
import Verif.Model.CommandLine
import Verif.Spec.CommandLine
import Verif.Lemmas.CommandLine
import Verif.Props.CommandLine
import Verif.Props.CommandLineSample
import Verif.Model.DriverDsn
import Verif.Spec.DriverDsn
import Verif.Lemmas.DriverDsn
import Verif.Props.DriverDsn
import Verif.Props.DriverDsnSample
import Verif.Model.ErrorReport
import Verif.Spec.ErrorReport
import Verif.Props.ErrorReport
import Verif.Model.ScriptRows
import Verif.Spec.ScriptRows
import Verif.Props.ScriptRows
import Verif.Props.ScriptRowsSample
import Verif.Model.ScriptKeys
import Verif.Spec.ScriptKeys
import Verif.Lemmas.Grouped
import Verif.Props.ScriptKeysMysql
import Verif.Props.ScriptKeysSqlite
import Verif.Props.ScriptKeysPostgres
import Verif.Props.ScriptKeysSample
import Verif.Model.ScriptIndexes
import Verif.Spec.ScriptIndexes
import Verif.Lemmas.GroupedTies
import Verif.Props.ScriptIndexesMysql
import Verif.Props.ScriptIndexesSqlite
import Verif.Props.ScriptIndexesSqlserver
import Verif.Props.ScriptForeignSqlserver
import Verif.Props.ScriptIndexesSample
import Verif.Model.ScriptIndexesPostgres
import Verif.Spec.ScriptIndexesPostgres
import Verif.Props.ScriptIndexesPostgres
import Verif.Props.ScriptIndexesPostgresSample
import Verif.Model.ScriptColumns
import Verif.Spec.ScriptColumns
import Verif.Props.ScriptColumnsMysql
import Verif.Props.ScriptColumnsPostgres
import Verif.Props.ScriptColumnsSqlserver
import Verif.Props.ScriptColumnsSample
import Verif.Model.ScriptObjects
import Verif.Spec.ScriptObjects
import Verif.Props.ScriptObjectsPostgres
import Verif.Props.ScriptObjectsViews
import Verif.Props.ScriptObjectsOthers
import Verif.Props.ScriptObjectsSample
import Verif.Model.ScriptRoutines
import Verif.Spec.ScriptRoutines
import Verif.Props.ScriptRoutines
import Verif.Props.ScriptRoutinesSample
import Verif.Model.ScriptStored
import Verif.Spec.ScriptStored
import Verif.Props.ScriptStored
import Verif.Props.ScriptStoredSample
import Verif.Model.ScriptOrder
import Verif.Spec.ScriptOrder
import Verif.Props.ScriptOrder
import Verif.Props.ScriptOrderSample
import Verif.Props.ScriptOrderViews
