# Formal model of bokwoon95/sqddl in Lean 4

`/repo` (Go) is read as text. `/verif/lean` holds a Lean 4 model of parts of it,
specifications that do not refer to the model, and theorems that connect the two.
`properties.jsonl` lists the properties, `MANIFEST.json` maps them to theorems.

## Layout

    lean/Verif/Basic.lean      byte strings and the Go `strings` functions that are used
    lean/Verif/Model/*.lean    the model: one definition per Go function, with file and lines
    lean/Verif/Spec/*.lean     small independent specifications (SQL lexers, abstract maps, ...)
    lean/Verif/Lemmas/*.lean   helper lemmas
    lean/Verif/Props/*.lean    the property theorems, each followed by concrete examples
    seeded/LOG.jsonl           record of deliberately wrong models tried against the theorems

A theorem whose name ends in `_partial` proves less than the property says.
A theorem whose name ends in `_refuted` proves the negation of (part of) a property
with a concrete witness: the code does not have the property.

## Modelling conventions

* A Go string is a list of bytes. The model uses `Str = List Char`; a `Char` stands for one
  byte. Theorems quantify over all lists, so over all byte strings.
* Go panics are not totalised away: functions that can panic return `none` or an explicit
  panic value.
* The database, the clock, the random source and the file system are parameters (oracles);
  theorems quantify over all of them. A crash is one of the outcomes of a database call.
* SHA-256 is an arbitrary function.

## Plan per property

| id | what is modelled | how it is proved |
|----|------------------|------------------|
| C01 | `MigrateCmd.Run` queue loop over an arbitrary history and oracle | induction over the file list; the duplicate-filename case is refuted by a witness |
| C02 | `sortAndFilterFilenames`, queue loop | sublist invariant over the run |
| C03 | `run` with transaction buffer, crash outcome at each call | induction over the batch |
| C04 | `Run`, `runWithRetry`, `run` | induction over batches |
| C05 | two consecutive runs | invariant: every executed file has a success row afterwards |
| C06 | run with failure, then run | same invariant plus the upsert of failed rows |
| C07 | checksum decision, `\r\n` replacement | equality of normal forms iff equality of lists of lines |
| C08 | queue loop as a batching function | induction over pending list |
| C09 | retry loop with an outcome stream | induction over attempts |
| C10 | delay arithmetic on 64-bit integers | case analysis; panics refuted by witness |
| C11 | `undo` call condition | trace invariant |
| C12 | `sortAndFilterFilenames` | membership and permutation |
| C13 | `LsCmd` status function | equality of decision functions |
| C14 | `LsCmd.Results` | permutation / sublist |
| C15 | `TouchCmd.Run` | map laws, composition with migrate |
| C16 | `RmCmd.Run`, `MvCmd.Run` on a table of rows | refinement to map delete / rename |
| C17 | error paths of the three commands | case analysis; mv refuted |
| C18 C19 | `QuoteIdentifier` | lexer specification per dialect, induction over the string |
| C20 C21 | `EscapeQuote` | lexer specification; exact characterisation of the strings that survive |
| C22 | `Sprint` for strings | expression evaluator specification |
| C23 | `Sprintf` | state machine, induction |
| C24 | `splitArgs` | induction over the input |
| C25 C26 | `GenerateName` | list lemmas; collisions refuted by witness |
| C27 C28 | `normalizeColumnType`, `normalizeColumnDefault` | case analysis over alias tables |
| C29 | `VersionNums` | induction over lists |
| C30 | modifier printer and parser | induction over the modifier tree |
| C31 C32 | `CatalogCache` | refinement to maps |
| C33-C36 | the differences that the four generators find, as events (`Model/Diff`) | the lists of a catalog as the specification, induction over catalogs |
| C37 C38 | the files of MySQL, Postgres and SQL Server migrations | abstract server that refuses statements out of order; invariant over the statements |
| C39 | numbering and lexical order | decimal printing lemmas; 100 files refuted |
| C40 C72 | warnings of MySQL and Postgres | case analysis over types |
| C41 | ALTER COLUMN of Postgres and SQL Server | abstract columns, case analysis of the differences |
| C42 C70 C71 | the file of a SQLite migration, `copyTable` | abstract SQLite with rows (C42), with schemas (C71), invariants over the statements |
| C43 | `GenerateCmd.Run`, `AutomigrateCmd.Run` decisions | case analysis |
| C44 | `WipeCmd.Run` | list of statements as data |
| C45 C46 | `BatchInsert.ExecContext` | induction over rows |
| C47 | field encoders and decoders of dump and load | case analysis per type |
| C48 C49 | `subsetter` | well-founded recursion, graph induction |
| C50 | `pqarray` | induction over strings |
| C51 | load order | list of steps as data |
| C52 | `setSessionValue` | state machine |
| C53 C73-C75 | `TableStructs.ReadCatalog`, the text of the tags, `StructParser.WriteCatalog` | invariant over fields and structs (what the parser has read so far is the image of a prefix of the catalog); witnesses |
| C54 | `NormalizeDSN` | case analysis |
| C55-C59 | `migrate` with nothing selected, batch insert errors, `walkDir`, history reading, filename arguments | case analysis, induction, witnesses |
| C60-C63 | normalisation and brackets | meaning of types and of their arguments, UTF-8 decoder, bracket matching as specifications |
| C64 C65 | subset templates and queries | evaluation of the queries on abstract databases |
| C66 | the DDL writers of dump_cmd.go and the migrations | reader of DDL text as the specification; read after write |
| C67 | MySQL, Postgres and SQL Server migrations, `generate` followed by `migrate`, `automigrate` | composition of C66, C38, C39 and the model of `migrate` |
| C76 C77 | `Sprint`, `Timestamp` | reader of literals as the specification, case analysis over values |
| C78 | the result of a subset query | reader of `VALUES` lists, induction over rows |
| C79-C83 | the introspector: rows of the queries, `WriteCatalog`, `mklist`, versions, types, defaults, checks | invariant over the reported objects (the catalog so far is the image of a prefix), readers of literals and types as specifications |
| C89-C94 | goroutines of load and dump, several migrate commands (`Model/LoadParallel`, `Model/DumpParallel`, `Model/MigrateParallel`) | machines whose schedule, outcomes and interference by others are inputs; invariants over all runs, witnesses |
| C95 | schema.sql, indexes.sql, constraints.sql of `sqddl dump` (`Model/Dump`) | `DumpSpec.dbOf`: the database a catalog describes; the three texts are read as statements, and the servers of C38 and C67 run them from an empty database: every statement adds a part of the goal, and what a foreign key references is there before it |
| C96 | entries of a dump and plans of a load | the jobs of a successful load are those of the content of the dump |
| C97 | the queries of a dump (`Dump.tableQuery`), `dumpCSV`, `loadCSV`, `BatchInsert` | reader of SELECT as the specification; a database answers with its rows in any order that the query allows; composition with C45, C47 and C69 |
| C98 | extensions, enums and domains in schema.sql of Postgres | readers of CREATE EXTENSION, CREATE TYPE and CREATE DOMAIN; a server with types over the one of C95, which refuses a text that names a type that is not there (`uses` tells what a text names and is arbitrary); induction over the schemas with the statements before as a parameter |
| C99 | `encoding/json` for catalogs (writing with indentation, reading into a record), `writeCatalog` of generate for JSON, zip, tgz and directories | reader of JSON (RFC 8259, with UTF-8 from RFC 3629) as the specification; every code point is escaped by itself and read back by itself; tokens of a value, then the parser with fuel; one step lemma per kind of field |
| C100 | decoding onto a catalog that is not empty, `-src a,b` | refuted for all catalogs (number of schemas) and by a sample |
| C101 | introspection of SQLite, then schema.sql and indexes.sql | `LiteDump`: a database is the list of its definitions (tokens); texts on lines of their own are read the same way whatever follows; the end-to-end theorem composes the catalog of C79 with the files, the indexes being grouped by table (a permutation) |
| C102 | all subset queries of a dump, then the text of the query of a table | `SelectSpec`: the text is read as a query (WITH, VALUES, SELECT DISTINCT, JOIN, UNION, ORDER BY), whose answers are defined by the scopes of its tables; the theorem composes the reading, the resolution of every column to one table and the chains of joins of C48, so that the answers are the dumped rows of C48 in the order of the key |
| C103 | the texts of all statements of a batch insert, with their parameters | `InsertSpec`: the texts are read as INSERT, UPDATE with JOIN and INSERT with SELECT, parameters are filled in by number or position, and the statements are run on a list of rows under the comparison of keys of the database; the theorem relates the rows after all batches to upserting one row after the other (`BatchSpec.upsertAll`) |
| C104 | the texts of the statements on the history table, and the scan of their answers | `HistorySql`: the texts are read as SELECT, DELETE and UPDATE and run on a list of rows under the comparison of texts of the database; the theorems relate answers and rows to the abstract history (`selectRows`, `rmStmt`, `mvStmt`, `missingNames`, upserts) that the properties of migrate, touch, ls, rm and mv are about; CREATE TABLE is read with `DdlText` |
| C105 | `historyTableExists`, `ensureHistoryTableExists` with their texts | `CatalogQuery`: a database with schemas and objects, what sqlite_schema, pg_class, pg_namespace, information_schema.tables and sys.tables show of it, a reader for EXISTS queries with the answer, and CREATE TABLE with the names it takes; temporary and foreign tables, permissions and the internal indexes of SQLite are left out |
| C106 | `main`, the flags of all subcommands, Go's `flag.Parse` as the code uses it | `LineSpec`: a relation between settings and the ways of writing them (one or two dashes, value apart or behind `=`, bare switches), tables of the flags and defaults of the usage texts, and what a command line means; `parse_inv` shows that the relation misses no list of arguments that is accepted |
| C107 | `PreprocessDSN` of the drivers, `url.ParseQuery` and `Values.Encode` as the code uses them | `UrlSpec`: a reader of URL queries, the values of a parameter, and the reader of the MySQL driver for its own form of URLs |
| C108 | `AnnotateError`, `IsLockTimeout` of the drivers, `fmt.Errorf` with one argument | `ReportSpec`: the line of a character position in UTF-8 text, the texts of reports |
| C109 | the conditions of the introspection scripts for tables, indexes, routines and SQLite columns, `LIKE` | `OwnSpec`: which schemas, databases and names a database keeps for itself; what lists of included and excluded names ask for |
| C110 | the introspection scripts for primary keys, unique constraints, foreign keys, checks and exclusion constraints of MySQL, SQLite, Postgres and SQL Server: joins, `GROUP BY` with ordered aggregation | `KeySpec`: the constraints of a database as they were defined, the rows that information_schema and the pragmas show for them in any order, what the databases demand of names and numbers; `IndexSpec` for SQL Server |
| C111 | the introspection scripts for indexes of the four dialects: joins, ordered aggregation with ties, `GetIndexes`' split into key columns and included columns | `IndexSpec`: the indexes of a database as they were defined (columns, expressions, directions, included and partitioning columns), the rows that the catalogs show for them in any order |
| C112 | the introspection scripts for columns of Postgres, MySQL and SQL Server: left joins, type, precision and scale from the modifier, identity, `extra`, generated columns, order by number | `ColumnSpec`: for Postgres what each field must say of the catalog rows of a column (`PgColShown`), for MySQL and SQL Server tables with columns as they were defined, the rows shown for them in any order, and the columns to be reported |
| C113 | the introspection scripts for enums, domains, views and triggers of Postgres, views of MySQL and triggers of SQL Server: joins, grouping, `to_regclass`, `obj_description`, NULL definitions | `ObjectSpec`: what each field must say of the catalog rows of the object (`EnumShown`, `DomainShown`, `ViewShown`, `TriggerShown`, `CommentOf`), which objects are asked for (`SchemaAsked`, `MyViewAsked`, `MsTriggerAsked`) |
| C114 | the introspection scripts for routines and extensions of Postgres, triggers of MySQL, views and triggers of SQLite, views of SQL Server; for triggers of SQLite also `WriteCatalog` | `RoutineSpec`: what each field must say of the catalog rows (`RoutineShown`, `RoutineComment`, `MsViewIs`), what belongs to an extension (`OfExtension`), what is asked for (`RoutineAsked`, `MsViewAsked`) |
| C115 | the introspection scripts for routines of MySQL and SQL Server, and `GetRoutines` on their rows: the join with the grouped parameters, `group_concat` with NULL, NULL definitions; `WriteCatalog` for routines of one name | `StoredSpec`: what each field must say of the catalog rows (`MyStoredIs`, `Parameters`, `MsStoredIs`), line breaks (`SameLines`), what is asked for (`MyStoredAsked`, `MsStoredAsked`) |
| C116 | what the introspection scripts sort by: tables, triggers of Postgres, MySQL and SQLite, views of SQLite, routines of Postgres and SQL Server, extensions of Postgres, foreign keys of SQLite; how a database compares names is a parameter | `OrderSpec`: the order of an answer (`keyLe`, `Answers`), names that the database tells apart (`Apart`), the same database with rows stored in another order (`SameMy`, `SamePg`, `SameLite`, `SameRoutines`, `SameTriggers`) |
| C68 C69 | `writeCSV`, names of the files of a dump | induction over rows, witnesses |

## What is modelled

Every definition in `Model/` cites the lines that it models.

| source | modelled | not modelled |
|--------|----------|--------------|
| main.go | everything but the texts that are printed (C106) | `strconv.ParseInt` and `time.ParseDuration` are parameters; panics of commands |
| drivers/ddlpgx, ddlpostgres, ddlsqlite3, ddlmysql, ddlsqlserver, ddloracle | `PreprocessDSN` (C107; ddloracle changes nothing), `IsLockTimeout`, `AnnotateError` (C108) | `url.Parse` is a parameter; registration |
| ddl.go | names, types, defaults, versions, brackets, `splitArgs`, `NormalizeDSN`, catalog records | opening of connections, driver registry |
| sq.go | `QuoteIdentifier`, `EscapeQuote`, keywords, `Sprintf`, `Sprint`, `Timestamp` | package `time`, `strconv` for floating point numbers (parameters) |
| migrate_cmd.go, touch_cmd.go, ls_cmd.go, rm_cmd.go, mv_cmd.go | everything but output and cancellation by context; flags (C106); the texts of the statements on the history table (C104) | in the commands each of these statements is one abstract call; C104 and C105 relate the call to its text |
| batch_insert.go | everything | column types of the driver |
| catalog_cache.go | all calls, `WriteCatalog` | sharing of memory between catalogs |
| modifier.go, pqarray.go | everything | - |
| mysql_migration.go, postgres_migration.go, sqlite_migration.go, sqlserver_migration.go | everything: differences, files, warnings (SQLite has none) | - |
| generate_cmd.go, automigrate_cmd.go | the sources of the catalogs, what is written, printed, executed, refused; flags (C106) | - |
| wipe_cmd.go | everything | - |
| dump_cmd.go | DDL writers, the texts of schema.sql, indexes.sql and constraints.sql, the queries of the tables, CSV encoding, names of files, the entries of archives, the text of schema.json, the goroutines of a dump into a directory | the bytes of archives, progress |
| load_cmd.go | order of the files, CSV decoding, session settings, the goroutines and their transactions | progress. What `BEGIN` does in a transaction is a parameter |
| subsetter.go | the joins, the templates, the keys of the result, the text of the query of a table | the lookup of the table and its primary key in the catalog (they are given), the calls to the database |
| struct_parser.go, table_structs.go | `ReadCatalog`, `WriteCatalog`, the parsers of modifiers, the text of names and tags; in `Model/StructText` `MarshalText`, `VisitStruct`, `ParseFile` | texts of errors, positions, the analysis driver. go/parser is `Spec/GoText`, a reader for struct types with fields as they occur here; gofmt is trusted to change white space only |
| view_structs.go | everything (`Model/StructText`) | - |
| tables_cmd.go, views_cmd.go | flags (C106), `Run` from the catalog to the file (`Model/StructText`) | - |
| database_introspector.go | `Model/IntrospectRows` (what is made of the rows of each query, `mklist`), `Model/Introspect` (`WriteCatalog`), `Model/ScriptRows` (which tables, indexes and routines the scripts select; C109), `Model/ScriptKeys` (the scripts for constraints; C110), `Model/ScriptIndexes`, `Model/ScriptIndexesPostgres` (the scripts for indexes, the constraints of SQL Server, checks and exclusion constraints of Postgres; `pg_get_indexdef`, `pg_get_expr` and `pg_get_constraintdef` are oracles; C110, C111), `Model/ScriptColumns` (the scripts for columns; `format_type`, `pg_get_expr`, `col_description`, `COLUMNPROPERTY` and `OBJECT_DEFINITION` are oracles, `ORDER BY` is modelled within a table only; C112), `Model/ScriptObjects` (enums, domains, views and triggers; `format_type`, `pg_get_viewdef`, `pg_get_triggerdef`, `pg_get_constraintdef` and `to_regclass` of names that need quotes are oracles; C113), `Model/ScriptRoutines` (routines and extensions, the other views and triggers; `pg_get_functiondef`, `pg_get_function_result` and `pg_get_function_identity_arguments` are oracles; C114), `Model/ScriptStored` (routines of MySQL and SQL Server, without the limit of `group_concat`; C115), `Model/ScriptOrder` (what tables, triggers, routines, extensions and the views and foreign keys of SQLite are sorted by, without routines of MySQL and triggers of SQL Server; C116) | the other SQL of the introspection scripts; elsewhere their rows are an oracle, JSON arrays are given decoded |

Abstract databases are specifications, written from the manuals and independent of the model:
`Spec/Engine` (MySQL), `Spec/PgEngine` (Postgres), `Spec/MsEngine` (SQL Server), `Spec/SqliteRows`, `Spec/SqliteSchema`,
`Spec/SqliteAccepts` (SQLite), `Spec/Wipe`. Their comments say what they leave out. The text of a
migration reaches them through readers (`Spec/Lex`, `Spec/DdlText`, `Spec/PgText`,
`Spec/MsText`, `Spec/SqliteText`) that know nothing about the writers.

## What the code does not do

A property that the code does not have is kept in `properties.jsonl` as a user would expect it. Then
the part that holds is proved (`_partial`, with the conditions as named predicates), and each
condition that is not merely technical has a theorem `_refuted` with a witness. The notes in
`MANIFEST.json` name them.

## Trusted base

* Lean's kernel (4.33.0). No theorem depends on an axiom other than the three standard ones `propext`,
  `Classical.choice`, `Quot.sound`; there is no `sorry`, `native_decide` or `bv_decide`.
* That the model agrees with the Go code: it was written by hand from the source text, each
  definition cites the lines it models and says where it simplifies.
* That the specifications say what the English statements say, and that the abstract databases refuse
  and do what the real ones refuse and do, as far as the statements of a migration are concerned.
* Go's standard library, the database engines and drivers are not verified; the parts used are
  modelled as stated in the comments.

## Seeded errors

`seeded/LOG.jsonl` records wrong models: the definition, the edit, the claim that becomes false, the
theorems that no longer check. An edit that no theorem noticed led to a new or stronger theorem
(`tightened`), or is marked as one that breaks no claim.
