{"id": "C01", "title": "Applied migrations are never applied again", "statement": "If the history table records a non-repeatable migration file as successfully applied, then `sqddl migrate` (MigrateCmd.Run) does not execute that file's script again, whatever else is in the directory, the history table or the list of filenames given on the command line.", "quantifier": "every history table content, every list of filenames (with or without repeats), every dialect, every failure of the other migrations", "why_tests_cant": "Tests run a handful of directories; the claim is about all histories and all filename lists, including the ones with repeated names, and about every run outcome.", "anchors": ["ddl/migrate_cmd.go: MigrateCmd.Run (cache map, queue loop)"]}
{"id": "C02", "title": "Migrations run in the listed order, repeatables last", "statement": "The scripts executed by one `migrate` run are, in order and apart from retries after lock timeouts, a subsequence of the selected filenames; all non-repeatable files precede all files under repeatable/, and within each of the two groups the order in which the files were listed is kept.", "quantifier": "every list of filenames, every history, every failure point", "why_tests_cant": "Order must hold for all lists and all subsets already applied; a test checks one permutation.", "anchors": ["ddl/touch_cmd.go: sortAndFilterFilenames", "ddl/migrate_cmd.go: MigrateCmd.Run"]}
{"id": "C03", "title": "A transactional batch is all or nothing, history included", "statement": "For migrations that run inside a transaction, the database effects of the scripts and their success rows in the history table become visible together on commit; if any statement, history upsert or the commit fails, or the process crashes at any point, neither any effect nor any success row of the batch is visible.", "quantifier": "every batch, every failing step, every crash point", "why_tests_cant": "The number of crash points grows with the batch and they cannot be injected between the statements of the real driver by a unit test.", "anchors": ["ddl/migrate_cmd.go: run, runWithRetry"]}
{"id": "C04", "title": "The first failing migration stops the run", "statement": "When a migration fails, no migration listed after it is executed in that run, the run returns an error, and migrations from earlier batches stay applied and recorded as successful.", "quantifier": "every list of pending migrations, every failure position, every dialect", "why_tests_cant": "Has to hold for every failure position in every batch layout.", "anchors": ["ddl/migrate_cmd.go: MigrateCmd.Run, runWithRetry, run"]}
{"id": "C05", "title": "Running migrate again after success does nothing", "statement": "If `migrate` returned without error and neither the files nor the history changed since, running it again executes no script and leaves database and history as they are.", "quantifier": "every directory of distinct filenames, every start history, every dialect", "why_tests_cant": "Idempotence over all histories and file sets is an induction over the run, not a sample.", "anchors": ["ddl/migrate_cmd.go: MigrateCmd.Run, run"]}
{"id": "C06", "title": "A failed run can be resumed", "statement": "After a run that stopped on a failure, the next run executes exactly the files that have no successful history row (plus changed repeatables): nothing that succeeded is repeated and nothing pending is skipped. The failed file itself is recorded with success = false, and is executed again.", "quantifier": "every list of distinct filenames, every history, every failure point of the first run", "why_tests_cant": "Two-run histories over arbitrary failure points.", "anchors": ["ddl/migrate_cmd.go: runWithRetry (upsert of failed rows), MigrateCmd.Run"]}
{"id": "C07", "title": "Repeatable migrations are re-run exactly when their contents change", "statement": "A file under repeatable/ is executed by `migrate` iff it has no successful history row or its contents differ from those last applied, where line endings \\r\\n and \\n are not a difference (up to SHA-256 collisions).", "quantifier": "every file content, every stored checksum, every history row", "why_tests_cant": "All contents, all mixtures of line endings.", "anchors": ["ddl/migrate_cmd.go: MigrateCmd.Run (checksum)", "ddl/touch_cmd.go: TouchCmd.Run (checksum)"]}
{"id": "C08", "title": "Which migrations share a transaction", "statement": "Consecutive pending migrations are grouped into batches so that the batches in order concatenate to the pending list, no batch is empty, a batch with more than one file contains no .tx.sql and no .txoff.sql file and only occurs on dialects other than MySQL.", "quantifier": "every list of pending files and every dialect", "why_tests_cant": "Every interleaving of the three kinds of file names.", "anchors": ["ddl/migrate_cmd.go: MigrateCmd.Run (queue)", "ddl/migrate_cmd.go: runWithRetry (isTx)"]}
{"id": "C09", "title": "Lock timeouts are retried a bounded number of times and nothing else is retried", "statement": "A batch is attempted at most MaxAttempts times; it is attempted again only if the previous attempt failed with a lock timeout and the batch is transactional or a single statement; any other error is final.", "quantifier": "every sequence of attempt outcomes, every MaxAttempts", "why_tests_cant": "Unbounded sequences of outcomes.", "anchors": ["ddl/migrate_cmd.go: runWithRetry"]}
{"id": "C10", "title": "The retry delay stays between BaseDelay and MaxDelay", "statement": "The wait before a retry is never below BaseDelay nor above MaxDelay (when BaseDelay <= MaxDelay), and computing it never crashes the program.", "quantifier": "every BaseDelay, MaxDelay, attempt number and random draw", "why_tests_cant": "Depends on all durations and on random draws; the failing values are corner cases.", "anchors": ["ddl/migrate_cmd.go: runWithRetry (delay computation)"]}
{"id": "C11", "title": "Undo scripts run only where a rollback is impossible", "statement": "The .undo.sql script of a migration is executed iff that migration failed outside of a transaction and is not a single statement; the error returned is always the migration's own error, with an undo failure added to it.", "quantifier": "every batch, every failure, every presence or absence of undo files", "why_tests_cant": "All combinations of file kind, contents, failure and undo outcome.", "anchors": ["ddl/migrate_cmd.go: runWithRetry, undo"]}
{"id": "C12", "title": "Selection of migration files", "statement": "From any list of names, the files considered are exactly those ending in .sql that do not end in .undo.sql and are not named schema.sql, indexes.sql or constraints.sql; nothing is added, duplicated or lost.", "quantifier": "every list of filenames", "why_tests_cant": "All names, including ones that are suffixes or prefixes of the special names.", "anchors": ["ddl/touch_cmd.go: sortAndFilterFilenames"]}
{"id": "C13", "title": "ls shows exactly what migrate would do", "statement": "A file listed by `sqddl ls` as pending or failed is exactly one that `sqddl migrate` would execute next, and a file shown as applied is one it would skip.", "quantifier": "every directory, every history table", "why_tests_cant": "The two commands implement the decision separately; equality must hold for all rows.", "anchors": ["ddl/ls_cmd.go: LsCmd.Results", "ddl/migrate_cmd.go: MigrateCmd.Run"]}
{"id": "C14", "title": "ls classifies every file once and reports orphans", "statement": "With all statuses included, ls prints each selected file exactly once, in order, with one status, followed by exactly the history rows whose file no longer exists, sorted with repeatables last; every filter flag only hides rows.", "quantifier": "every directory, every history, every combination of flags", "why_tests_cant": "Partition over arbitrary lists and flag combinations.", "anchors": ["ddl/ls_cmd.go: LsCmd.Results"]}
{"id": "C15", "title": "touch marks files as applied without running them", "statement": "After `sqddl touch f1 f2 ...`, `migrate` skips those files (as long as a repeatable's contents stay the same), no script has been executed, and the history rows of all other files are unchanged; touching twice is the same as touching once up to timestamps.", "quantifier": "every history, every list of files", "why_tests_cant": "All histories and lists, interplay with migrate.", "anchors": ["ddl/touch_cmd.go: TouchCmd.Run", "ddl/migrate_cmd.go: MigrateCmd.Run"]}
{"id": "C16", "title": "rm and mv act on exactly the named history rows", "statement": "`sqddl rm` deletes exactly the rows of the given names; `sqddl mv a b` renames exactly the row of a and keeps its contents; every other row stays the same. Names reach the database unchanged.", "quantifier": "every history, every filename string", "why_tests_cant": "Every history and every name, including names with quote characters.", "anchors": ["ddl/rm_cmd.go: RmCmd.Run", "ddl/mv_cmd.go: MvCmd.Run", "ddl/sq.go: EscapeQuote"]}
{"id": "C17", "title": "History commands report database errors", "statement": "If the database rejects the statement of a history command (rm, mv, touch), the command returns an error.", "quantifier": "every database outcome", "why_tests_cant": "Error paths of a live database.", "anchors": ["ddl/mv_cmd.go: MvCmd.Run", "ddl/rm_cmd.go: RmCmd.Run", "ddl/touch_cmd.go: TouchCmd.Run"]}
{"id": "C18", "title": "Quoted identifiers name exactly the object asked for", "statement": "For every identifier string and dialect, the text produced by QuoteIdentifier, read back by the SQL lexical rules of that dialect, is one identifier token denoting exactly the given string; in particular no string can break out of its quotes and different strings never become the same identifier.", "quantifier": "every string, every dialect", "why_tests_cant": "All strings, including any mixture of quotes, brackets and keywords.", "anchors": ["ddl/sq.go: QuoteIdentifier, EscapeQuote"]}
{"id": "C19", "title": "Unquoted identifiers are safe", "statement": "QuoteIdentifier leaves a name unquoted only if it is a non-empty lower-case word of letters, digits and underscores that does not start with a digit and is not a keyword of the dialect, apart from the fixed pseudo-table names EXCLUDED, INSERTED, DELETED, NEW and OLD.", "quantifier": "every string, every dialect", "why_tests_cant": "All strings.", "anchors": ["ddl/sq.go: QuoteIdentifier"]}
{"id": "C20", "title": "Escaped text cannot leave its literal", "statement": "For every string s and quote character q, the text q + EscapeQuote(s, q) + q is one complete quoted token for a lexer that reads a doubled quote as an escaped one: no string makes the token end early or stay open.", "quantifier": "every string, every quote character", "why_tests_cant": "All strings, including runs of quotes of any length.", "anchors": ["ddl/sq.go: EscapeQuote"]}
{"id": "C21", "title": "Escaped text reads back as the original", "statement": "The value denoted by q + EscapeQuote(s, q) + q is s.", "quantifier": "every string, every quote character", "why_tests_cant": "All strings; fails only on particular runs of quotes that tests do not contain.", "anchors": ["ddl/sq.go: EscapeQuote"]}
{"id": "C22", "title": "String values are printed as literals that read back as the value", "statement": "For every string value, the SQL text produced by Sprint is an expression whose value in the dialect is that string (quotes, carriage returns and newlines included), and it contains no raw newline.", "quantifier": "every string, every dialect", "why_tests_cant": "All strings.", "anchors": ["ddl/sq.go: Sprint"]}
{"id": "C23", "title": "Parameter substitution does not touch quoted text", "statement": "Sprintf copies single-quoted strings and quoted identifiers of the query unchanged, replaces each placeholder outside of them by the literal of its argument, and never crashes.", "quantifier": "every query, every argument list, every dialect", "why_tests_cant": "All queries.", "anchors": ["ddl/sq.go: Sprintf, lookupParam"]}
{"id": "C24", "title": "Argument splitting loses nothing and respects nesting", "statement": "Joining the pieces returned by splitArgs with commas gives the input back, and a comma is a separator iff it is outside string literals, parentheses and array brackets.", "quantifier": "every string", "why_tests_cant": "All nestings and unbalanced inputs.", "anchors": ["ddl/ddl.go: splitArgs"]}
{"id": "C25", "title": "Generated object names are valid and recognisable", "statement": "GenerateName returns at most 63 bytes, contains no space, and ends with the suffix of the object type; if nothing had to be cut off, the name is the table and column names joined by underscores followed by the suffix.", "quantifier": "every table name, every list of columns, every type", "why_tests_cant": "All lengths around the limit.", "anchors": ["ddl/ddl.go: GenerateName"]}
{"id": "C26", "title": "Different keys get different generated names", "statement": "Two different constraints or indexes of one schema never get the same generated name.", "quantifier": "every pair of (type, table, columns)", "why_tests_cant": "All pairs; fails on truncation and on underscores.", "anchors": ["ddl/ddl.go: GenerateName"]}
{"id": "C27", "title": "Column type normalisation is stable", "statement": "Normalising an already normalised column type changes nothing, letter case and surrounding blanks do not matter, all aliases of a type normalise to the same name, and no input crashes the program.", "quantifier": "every string, every dialect", "why_tests_cant": "All strings.", "anchors": ["ddl/ddl.go: normalizeColumnType"]}
{"id": "C28", "title": "Column default normalisation is stable", "statement": "Normalising an already normalised column default changes nothing.", "quantifier": "every string, every dialect", "why_tests_cant": "All strings, e.g. nested brackets.", "anchors": ["ddl/ddl.go: normalizeColumnDefault, unwrapBrackets, wrapBrackets"]}
{"id": "C29", "title": "Version comparison is an ordering", "statement": "VersionNums.LowerThan/GreaterOrEqualTo are complementary and compare versions by the first differing number.", "quantifier": "every version and every bound", "why_tests_cant": "All lengths of version lists.", "anchors": ["ddl/ddl.go: VersionNums.LowerThan, GreaterOrEqualTo"]}
{"id": "C30", "title": "ddl struct tags survive printing and parsing", "statement": "Parsing the text printed for a list of modifiers gives the same modifiers back.", "quantifier": "every list of modifiers", "why_tests_cant": "All nested lists and values with blanks and braces.", "anchors": ["ddl/modifier.go: NewModifiers, Modifiers.String, popModifier, popValue, writeBuf"]}
{"id": "C31", "title": "The catalog cache always returns the latest object", "statement": "After any sequence of AddOrUpdate/GetOrCreate calls, Get returns the last version stored under a name, or nothing if none was stored; other names are not affected and every name occurs once in the catalog.", "quantifier": "every sequence of operations", "why_tests_cant": "All interleavings.", "anchors": ["ddl/catalog_cache.go: CatalogCache"]}
{"id": "C32", "title": "Copying a catalog keeps everything", "statement": "Writing a catalog with distinct names into an empty catalog gives an equal, independent catalog.", "quantifier": "every catalog", "why_tests_cant": "All catalogs; loss shows only for particular fields.", "anchors": ["ddl/catalog_cache.go: CatalogCache.WriteCatalog"]}
{"id": "C33", "title": "Equal schemas need no migration", "statement": "Generating a migration from a catalog to itself produces no file and no warning.", "quantifier": "every well-formed catalog, all four dialects, with and without -drop-objects", "why_tests_cant": "All catalogs.", "anchors": ["ddl/sqlite_migration.go", "ddl/postgres_migration.go", "ddl/mysql_migration.go", "ddl/sqlserver_migration.go"]}
{"id": "C34", "title": "Nothing is dropped unless asked", "statement": "Without -drop-objects no generated migration drops a schema, table or column, and it drops a constraint or index only if it is replaced by one that is added in the same migration.", "quantifier": "every pair of catalogs, all four dialects", "why_tests_cant": "All pairs of catalogs.", "anchors": ["ddl/sqlite_migration.go: newSQLiteMigration", "ddl/postgres_migration.go: newPostgresMigration", "ddl/mysql_migration.go: newMySQLMigration", "ddl/sqlserver_migration.go: newSQLServerMigration"]}
{"id": "C35", "title": "Exactly the missing tables and columns are created", "statement": "A table (column) is created iff it exists, not ignored, in the destination and not in the source; each is created once.", "quantifier": "every pair of catalogs", "why_tests_cant": "All pairs of catalogs.", "anchors": ["ddl/postgres_migration.go: newPostgresMigration", "ddl/mysql_migration.go: newMySQLMigration", "ddl/sqlserver_migration.go: newSQLServerMigration", "ddl/sqlite_migration.go: newSQLiteMigration"]}
{"id": "C36", "title": "With -drop-objects exactly the surplus objects are dropped", "statement": "With -drop-objects a table (column, index, constraint) of the source is dropped iff it is not ignored and does not exist in the destination.", "quantifier": "every pair of catalogs, all four dialects", "why_tests_cant": "All pairs; the failing case is a table whose only difference is the dropped column.", "anchors": ["ddl/postgres_migration.go: newPostgresMigration", "ddl/mysql_migration.go: newMySQLMigration", "ddl/sqlserver_migration.go: newSQLServerMigration", "ddl/sqlite_migration.go: newSQLiteMigration"]}
{"id": "C37", "title": "Foreign key statements address the right table", "statement": "Each generated ADD/DROP/VALIDATE of a foreign key is an ALTER TABLE on the table that owns the foreign key, and every foreign key to be added or dropped appears exactly once.", "quantifier": "every pair of catalogs", "why_tests_cant": "All reference graphs, in particular tables referencing each other.", "anchors": ["ddl/postgres_migration.go: newPostgresMigration (getTablesID), sql", "ddl/sqlserver_migration.go: newSQLServerMigration, sql"]}
{"id": "C38", "title": "Drop and create statements are ordered so that they can run", "statement": "In a generated migration foreign keys are dropped before tables, schemas are created before tables, tables are created before foreign keys are added, and columns are added before the indexes and constraints of their table.", "quantifier": "every pair of catalogs", "why_tests_cant": "All pairs of catalogs.", "anchors": ["ddl/postgres_migration.go: sql", "ddl/mysql_migration.go: sql", "ddl/sqlserver_migration.go: sql"]}
{"id": "C39", "title": "Generated files are applied in the order they were generated", "statement": "When the files written by `generate` are picked up by `migrate` from the directory (lexical order), they run in the order in which they were generated, and no two have the same name.", "quantifier": "every number of generated files, every prefix and object name", "why_tests_cant": "Depends on the number of files, any number.", "anchors": ["ddl/postgres_migration.go: sql (%02d numbering)", "ddl/touch_cmd.go: walkDir", "ddl/generate_cmd.go: GenerateCmd.Results"]}
{"id": "C40", "title": "Unsafe Postgres and MySQL column changes are always reported", "statement": "Narrowing a VARCHAR or NUMERIC column or changing a column to another type outside of the list of safe changes always adds a warning; the listed safe changes add none.", "quantifier": "every pair of column types", "why_tests_cant": "All pairs of types and limits.", "anchors": ["ddl/postgres_migration.go: sql (ALTER TYPE)", "ddl/mysql_migration.go: sql"]}
{"id": "C41", "title": "Altering columns reaches the destination", "statement": "The ALTER COLUMN statements generated for a column turn its type, nullability, default, identity and collation into those of the destination.", "quantifier": "every pair of columns, dialects Postgres and SQL Server", "why_tests_cant": "All combinations of attributes.", "anchors": ["ddl/postgres_migration.go: sql (ALTER COLUMN)", "ddl/sqlserver_migration.go: sql (ALTER COLUMN)"]}
{"id": "C42", "title": "SQLite table rebuild keeps the data", "statement": "When a SQLite table is rebuilt, all rows are kept with the values of all columns common to the old and new table, and other tables are unchanged.", "quantifier": "every table, every set of columns, every row set", "why_tests_cant": "All tables and rows.", "anchors": ["ddl/sqlite_migration.go: copyTable, sql"]}
{"id": "C43", "title": "Warnings and dry runs block changes", "statement": "If a migration has warnings and they were not accepted, nothing is executed and no file is written; with -dry-run nothing is executed and no file is written in any case.", "quantifier": "every migration, every combination of flags", "why_tests_cant": "All flag combinations.", "anchors": ["ddl/automigrate_cmd.go: AutomigrateCmd.Run", "ddl/generate_cmd.go: GenerateCmd.Run"]}
{"id": "C44", "title": "wipe drops everything once in dependency order", "statement": "wipe drops every view, table, routine, enum, domain and extension exactly once, foreign keys and views before tables, tables before the types they use; with -dry-run the database is not changed.", "quantifier": "every catalog, every dialect", "why_tests_cant": "All catalogs.", "anchors": ["ddl/wipe_cmd.go: WipeCmd.Run"]}
{"id": "C45", "title": "Batch inserts send every row once, in order", "statement": "The concatenation of the rows of all executed statements is the sequence of rows produced by the callback; each statement has as many placeholders as arguments, numbered in order, and no statement exceeds the parameter limit of the dialect.", "quantifier": "every number of rows and columns, every batch size, every dialect", "why_tests_cant": "All sizes, boundaries at multiples of the batch size.", "anchors": ["ddl/batch_insert.go: BatchInsert.ExecContext, writeRowValues"]}
{"id": "C46", "title": "Upserting batches equals upserting rows one by one", "statement": "For rows with distinct keys per batch, inserting in batches leaves the table in the same state as upserting the rows one after the other.", "quantifier": "every table state, every list of rows, every batch size", "why_tests_cant": "All table states and row lists.", "anchors": ["ddl/batch_insert.go: BatchInsert.ExecContext"]}
{"id": "C47", "title": "Dumped values load back unchanged", "statement": "A value dumped to CSV and loaded again into a column of the same type is the same value.", "quantifier": "every value of every supported column type, every null string and binary prefix", "why_tests_cant": "All values; fails for values that collide with the null string and for empty byte strings.", "anchors": ["ddl/dump_cmd.go: dumpCSV", "ddl/load_cmd.go: loadCSV"]}
{"id": "C48", "title": "A subset dump is referentially intact", "statement": "For every row in a subset dump, the rows it refers to by foreign keys are in the dump too.", "quantifier": "every foreign key graph, every data set, every subset query", "why_tests_cant": "All graphs; fails for diamonds and self references.", "anchors": ["ddl/subsetter.go: subset, Query"]}
{"id": "C49", "title": "Subsetting terminates and does not crash", "statement": "Computing a subset terminates for every foreign key graph, also cyclic ones, and never builds a broken chain of joins.", "quantifier": "every foreign key graph", "why_tests_cant": "All graphs with cycles.", "anchors": ["ddl/subsetter.go: subset, join.toSQL"]}
{"id": "C50", "title": "Postgres array text survives encoding and decoding", "statement": "Scanning the text form of an array of strings, booleans, integers or byte strings gives the same array back, and scanning arbitrary text never crashes.", "quantifier": "every array, every text", "why_tests_cant": "All strings with quotes, backslashes, commas and braces.", "anchors": ["internal/pqarray/pqarray.go: appendArrayQuotedBytes, parseArray, parseBytea, encodeBytea"]}
{"id": "C51", "title": "Loads run in dependency order", "statement": "Loading a dump directory or archive runs schema.sql first, then the CSV files, then indexes.sql, then constraints.sql, each at most once.", "quantifier": "every directory listing", "why_tests_cant": "All listings and missing files.", "anchors": ["ddl/load_cmd.go: loadDir, loadZip, loadTgz"]}
{"id": "C52", "title": "Session settings are restored", "statement": "A session setting changed for the duration of a command has its old value again when the command ends, is restored at most once, and is not touched if it already had the wanted value.", "quantifier": "every old value and every path through the command", "why_tests_cant": "All values and exit paths.", "anchors": ["ddl/load_cmd.go: setSessionValue", "ddl/migrate_cmd.go: MigrateCmd.Run"]}
{"id": "C53", "title": "Generated table structs describe the same column types", "statement": "Reading the struct generated for a table column back gives the column type that the database has.", "quantifier": "every column type, every dialect", "why_tests_cant": "All types; fails only for one default.", "anchors": ["ddl/table_structs.go: TableStructs.ReadCatalog, getFieldType", "ddl/struct_parser.go: StructParser.WriteCatalog"]}
{"id": "C54", "title": "Database URLs select the right dialect", "statement": "NormalizeDSN recognises each supported URL scheme and file name form, reads the URL from the file that a file: URL names, and returns no dialect for anything else.", "quantifier": "every string", "why_tests_cant": "All strings.", "anchors": ["ddl/ddl.go: NormalizeDSN"]}
{"id": "C55", "title": "Migrating with nothing to select succeeds", "statement": "`sqddl migrate` over a directory that contains no migration file succeeds and changes nothing.", "quantifier": "every dialect, every list of names without a migration file, every database state", "why_tests_cant": "Depends on the statement built for an empty selection on each database.", "anchors": ["ddl/migrate_cmd.go: MigrateCmd.Run (SELECT ... WHERE filename IN)"]}
{"id": "C56", "title": "A failed batch insert leaves no session setting behind", "statement": "When a batch insert ends, with or without an error, the IDENTITY_INSERT setting of a SQL Server table is off again, as it was before.", "quantifier": "every batch insert, every point of failure", "why_tests_cant": "Depends on the point of failure, which unit tests do not vary.", "anchors": ["ddl/batch_insert.go: BatchInsert.ExecContext"]}
{"id": "C57", "title": "Exactly the files of the migration directory are found", "statement": "When no filenames are given, touch, ls and migrate consider exactly the files of the migration directory itself and all files below its directory repeatable/, each once, those of the directory itself in its (lexical) order; other directories are not looked into.", "quantifier": "every directory tree with distinct names", "why_tests_cant": "All trees of any depth.", "anchors": ["ddl/touch_cmd.go: walkDir"]}
{"id": "C58", "title": "An interrupted read of the history is an error", "statement": "If the connection breaks while migrate reads the history table, migrate returns an error and executes no migration that is recorded as applied.", "quantifier": "every history, every point of interruption", "why_tests_cant": "Needs a connection that fails between two rows of a result.", "anchors": ["ddl/migrate_cmd.go: MigrateCmd.Run (rows.Next loop)", "ddl/ls_cmd.go: LsCmd.Run"]}
{"id": "C59", "title": "Filename arguments name files of the migration directory", "statement": "A filename given to migrate, touch, rm or mv stands for the same file of the migration directory whether it is written with or without the directory in front, and a name written without the directory is not changed.", "quantifier": "every directory name and filename", "why_tests_cant": "All pairs of names, also those with a common beginning.", "anchors": ["ddl/touch_cmd.go: normalizeFilename"]}
{"id": "C60", "title": "Different column types compare as different", "statement": "Two column types that the migration generator regards as equal (same normalised type and arguments) are the same type up to letter case, blanks and the aliases of the dialect; in particular an array is never taken for a scalar and an unsigned number never for a signed one.", "quantifier": "every dialect, every pair of column type texts", "why_tests_cant": "All pairs of texts; tests compare a few.", "anchors": ["ddl/ddl.go: normalizeColumnType"]}
{"id": "C61", "title": "Generated names are valid UTF-8", "statement": "If the table and column names are valid UTF-8, so is the generated constraint or index name, also when it has to be cut to 63 bytes.", "quantifier": "all names", "why_tests_cant": "All lengths and all positions of multi-byte characters relative to the cut.", "anchors": ["ddl/ddl.go: GenerateName"]}
{"id": "C62", "title": "Adding and removing brackets keeps the expression", "statement": "wrapBrackets turns an expression into one parenthesised expression and unwrapBrackets takes off only parentheses that enclose the whole expression, so that check, default and generated column expressions keep their meaning.", "quantifier": "every expression with balanced parentheses", "why_tests_cant": "All shapes of expressions.", "anchors": ["ddl/ddl.go: wrapBrackets", "ddl/ddl.go: unwrapBrackets", "ddl/dump_cmd.go: writeColumnDefinition"]}
{"id": "C63", "title": "Different column defaults compare as different", "statement": "Two column defaults that the migration generator regards as equal are the same text up to surrounding blanks or spellings of the same constant (TRUE/1, FALSE/0, the current time).", "quantifier": "every dialect, every pair of defaults", "why_tests_cant": "All pairs of texts.", "anchors": ["ddl/ddl.go: normalizeColumnDefault"]}
{"id": "C64", "title": "Subset query templates are filled in", "statement": "A subset query has its placeholders {*} and {table} replaced by the primary key columns and the name of the table; the rest of the query is sent as it is, and a template that cannot be filled in gives an error.", "quantifier": "every query text, every table", "why_tests_cant": "All query texts.", "anchors": ["ddl/subsetter.go: subset"]}
{"id": "C65", "title": "A subset dump contains nothing else", "statement": "Every row in a subset dump is a selected row of a base table or is referred to, directly or indirectly, by such a row (in an extended subset: is connected to one by foreign keys).", "quantifier": "every foreign key graph, every data set, every subset query", "why_tests_cant": "All databases and foreign key graphs.", "anchors": ["ddl/subsetter.go: subset, Query, join.toSQL"]}
{"id": "C66", "title": "DDL text denotes the catalog objects", "statement": "The CREATE SCHEMA, CREATE TABLE, CREATE INDEX, DROP and ALTER TABLE statements that dump, generate and automigrate write, read by the grammar of the dialect, define exactly the columns, constraints and indexes of the catalog they were written from, with all their attributes.", "quantifier": "every dialect, every column, constraint, index and table", "why_tests_cant": "All combinations of attributes, all names and expressions, including those that contain quotes, brackets, commas and semicolons.", "anchors": ["ddl/dump_cmd.go: writeCreateTable, writeCreateIndex, writeColumnDefinition, writeConstraintDefinition, writeIndexDefinition", "ddl/mysql_migration.go: sql"]}
{"id": "C67", "title": "A migration turns the old database into the new one", "statement": "The files generated from an old and a new version of a MySQL, Postgres or SQL Server schema, run by migrate or automigrate on a database of the old version, are statements that the database accepts one after the other, and afterwards the database is that of the new version (without -drop-objects: with what the old one had in addition).", "quantifier": "every pair of catalogs, with and without -drop-objects", "why_tests_cant": "All pairs of schemas; tests run a handful of migrations.", "anchors": ["ddl/mysql_migration.go: newMySQLMigration, sql", "ddl/postgres_migration.go: newPostgresMigration, sql", "ddl/sqlserver_migration.go: newSQLServerMigration, sql", "ddl/generate_cmd.go: GenerateCmd.Results", "ddl/automigrate_cmd.go: AutomigrateCmd.Run", "ddl/migrate_cmd.go: MigrateCmd.Run"]}
{"id": "C68", "title": "A dump that reports success has every row", "statement": "If dump ends without an error, the CSV file of a table has every row of the table that matches the filters.", "quantifier": "every table, every number of rows after which the connection breaks", "why_tests_cant": "Needs a connection that breaks at a given row.", "anchors": ["ddl/dump_cmd.go: DumpCmd.dumpCSV"]}
{"id": "C69", "title": "A dumped table is loaded into the table it came from", "statement": "The name of the CSV file that dump writes for a table makes load insert its rows into the same schema and table, and different tables have different files.", "quantifier": "every schema and table name, every current schema", "why_tests_cant": "All names.", "anchors": ["ddl/dump_cmd.go: DumpCmd.dumpDir, dumpZip, dumpTgz", "ddl/load_cmd.go: LoadCmd.loadCSV"]}
{"id": "C70", "title": "Rebuilding a SQLite table keeps its triggers", "statement": "When a migration rebuilds a SQLite table, the triggers of the table are created again after the new table has got its name.", "quantifier": "every table, every set of triggers", "why_tests_cant": "All tables and trigger texts.", "anchors": ["ddl/sqlite_migration.go: copyTable"]}
{"id": "C71", "title": "A SQLite migration turns the old database into the new one", "statement": "The file generated from an old and a new version of a SQLite schema consists of statements that SQLite accepts one after the other on a database of the old version, and afterwards the database has the tables, columns, constraints and indexes of the new version (without -drop-objects: with what the old one had in addition).", "quantifier": "every pair of catalogs, with and without -drop-objects", "why_tests_cant": "All pairs of schemas; tests run a handful of migrations.", "anchors": ["ddl/sqlite_migration.go: newSQLiteMigration, sql, copyTable"]}
{"id": "C72", "title": "Statements that take long on old Postgres servers are reported", "statement": "Generate and automigrate report, for a Postgres server before version 11, every column that is added with a default or an identity, and before version 12 every column of an existing table that becomes NOT NULL; on newer servers, and for other columns, nothing of the kind is reported.", "quantifier": "every pair of catalogs, every server version", "why_tests_cant": "All versions and all differences between two catalogs.", "anchors": ["ddl/postgres_migration.go: sql"]}
{"id": "C73", "title": "The structs generated for a database describe it", "statement": "Reading the structs that sqddl tables writes for a database gives no error and no panic, and the result has the same tables, columns in the same order, primary keys, unique constraints, foreign keys and indexes as the database, and no others.", "quantifier": "every database", "why_tests_cant": "All databases; a round trip of a sample database shows that only the sample comes back.", "anchors": ["ddl/table_structs.go: TableStructs.ReadCatalog, MarshalText", "ddl/struct_parser.go: StructParser.ParseFile, WriteCatalog", "ddl/modifier.go: NewModifiers, Modifier.String"]}
{"id": "C74", "title": "No migration from a database to its own structs", "statement": "Generate and automigrate find nothing to do if the destination is the structs that sqddl tables wrote for the same database.", "quantifier": "every database, with and without -drop-objects", "why_tests_cant": "All databases.", "anchors": ["ddl/tables_cmd.go: TablesCmd.Run", "ddl/generate_cmd.go: GenerateCmd.Results", "ddl/struct_parser.go: StructParser.WriteCatalog"]}
{"id": "C75", "title": "Structs can be spread over several files", "statement": "Giving the structs to generate in several files, in any order, has the same effect as giving them in one file.", "quantifier": "every set of structs, every split into files, every order of the files", "why_tests_cant": "All splits and orders.", "anchors": ["ddl/generate_cmd.go: GenerateCommand, writeCatalog", "ddl/struct_parser.go: StructParser.WriteCatalog"]}
{"id": "C76", "title": "Sprint writes every value as a literal of the value", "statement": "Sprint(dialect, v) returns, for every value v that database/sql accepts as an argument, a literal that the dialect reads as the value that database/sql would pass, on one line; it refuses all other values and does not panic.", "quantifier": "every dialect, every value of every type", "why_tests_cant": "All values of unboundedly many types, including pointers, Valuers and defined types.", "anchors": ["ddl/sq.go: Sprint, Sprintf"]}
{"id": "C77", "title": "A Timestamp comes back as the same time", "statement": "Timestamp.Scan of what Timestamp.Value returned, or of the integer or text that a database stores for it, gives the same time again; NULL gives NULL.", "quantifier": "every dialect, every time, every integer and text", "why_tests_cant": "All 64-bit integers and all times.", "anchors": ["ddl/sq.go: Timestamp.Scan, Timestamp.Value"]}
{"id": "C78", "title": "A subset dump joins with the rows that its query selected", "statement": "The query that dump runs for a table of a subset lists the primary keys of exactly the rows that the subset query selects, as literals that the database compares as equal to the keys; no key can change the rest of the query.", "quantifier": "every dialect, every number of rows, every value and type of a primary key", "why_tests_cant": "All values of keys, among them texts that look like SQL.", "anchors": ["ddl/subsetter.go: subsetter.addSubset, subsetter.Query"]}
{"id": "C79", "title": "The catalog of a database holds what the database reports", "statement": "WriteCatalog of an introspector gives a catalog with every schema of the database once, each with exactly the enums, domains, routines, views, tables, columns, constraints, indexes and triggers that the queries report for it, in their order; a column that is a primary key, unique or a foreign key of its own says so. It returns an error if a query fails or breaks off, and it does not panic.", "quantifier": "every database with any number of objects, every dialect, every answer of the queries", "why_tests_cant": "All databases and all ways in which the answers of eleven queries can end.", "anchors": ["ddl/database_introspector.go: DatabaseIntrospector.WriteCatalog, GetTables, GetColumns, GetConstraints, GetIndexes, GetTriggers, GetViews, GetRoutines, GetEnums, GetDomains", "ddl/catalog.go: CatalogCache"]}
{"id": "C80", "title": "Lists of columns are read as the database has them", "statement": "The columns of a constraint, the columns it references, the key columns, included columns and directions of an index, and the columns of a view are those of the database, in its order, whatever their names.", "quantifier": "every dialect, every list of names", "why_tests_cant": "All names, among them names with the separators of the lists.", "anchors": ["ddl/database_introspector.go: GetConstraints, GetIndexes, GetViews", "ddl/introspection_scripts"]}
{"id": "C81", "title": "Filters select exactly the named objects", "statement": "The lists of schemas, tables and views to include or exclude become a list of string literals with the values of the names in the introspection queries, and no name can change the rest of a query.", "quantifier": "every dialect, every list of names", "why_tests_cant": "All names, among them texts that look like SQL.", "anchors": ["ddl/database_introspector.go: mklist", "ddl/introspection_scripts"]}
{"id": "C82", "title": "The version of the database is known", "statement": "GetVersionNums returns the numbers at the start of the version that the database reports, for every release of a supported database.", "quantifier": "every dialect, every version", "why_tests_cant": "Unboundedly many versions and builds.", "anchors": ["ddl/database_introspector.go: GetVersion, GetVersionNums"]}
{"id": "C83", "title": "Types, defaults and checks are read as the database has them", "statement": "The type, the default and the check expressions that introspection reads mean the same as what the database reports: a column or constraint created from them is the one of the database.", "quantifier": "every dialect, every type, default and check expression", "why_tests_cant": "All types with all arguments, all expressions and texts.", "anchors": ["ddl/database_introspector.go: GetColumns, GetConstraints", "ddl/ddl.go: normalizeColumnType, wrapBrackets, unwrapBrackets, isLiteral"]}
{"id": "C84", "title": "The file of sqddl tables is read as the tables of the database", "statement": "If sqddl tables ends without an error, generate reads the file that it wrote (with or without -schema-qualified-structs) without an error, and finds in it the tables of the database.", "quantifier": "every database with any number of tables, every package name, every file before the run", "why_tests_cant": "All names and tags that are written into Go source and read back through the Go parser and the parser of tags.", "anchors": ["ddl/tables_cmd.go: TablesCmd.Run", "ddl/table_structs.go: TableStructs.MarshalText", "ddl/struct_parser.go: StructParser.VisitStruct, ParseFile"]}
{"id": "C85", "title": "A run of sqddl tables or views leaves a complete file or the old one", "statement": "If sqddl tables or sqddl views ends with an error the file is as it was before, and if it ends without an error the file holds the structs of the database.", "quantifier": "every database, every old content, every way in which making the directory, formatting, opening and writing can fail", "why_tests_cant": "All points at which a run can fail.", "anchors": ["ddl/tables_cmd.go: TablesCmd.Run", "ddl/views_cmd.go: ViewsCmd.Run"]}
{"id": "C86", "title": "The file of sqddl tables declares nothing twice", "statement": "The file that sqddl tables writes declares no type twice and no field of a struct twice, so that the Go compiler accepts it.", "quantifier": "every database, with and without -schema-qualified-structs", "why_tests_cant": "All pairs of names, among them names that differ in the case of letters, in spaces, or in their schema only.", "anchors": ["ddl/tables_cmd.go: TablesCmd.Run", "ddl/table_structs.go: TableStructs.ReadCatalog, MarshalText"]}
{"id": "C87", "title": "The structs of sqddl views describe the views of the database", "statement": "The structs in the file of sqddl views name exactly the views of the database with their schemas and columns, and the fields have the types that columns of tables with the same types have.", "quantifier": "every database with any number of views", "why_tests_cant": "All names of schemas, views and columns.", "anchors": ["ddl/view_structs.go: ViewStructs.ReadCatalog, MarshalText", "ddl/views_cmd.go: ViewsCmd.Run"]}
{"id": "C88", "title": "generate passes over the structs of views", "statement": "A file with structs of views, as sqddl views writes them, is read by generate as if they were not there.", "quantifier": "every database with any number of views, every other content of the file", "why_tests_cant": "All names of views.", "anchors": ["ddl/struct_parser.go: StructParser.VisitStruct, ParseFile", "ddl/view_structs.go: ViewStructs.MarshalText"]}
{"id": "C89", "title": "A CSV file is loaded completely or not at all", "statement": "sqddl load loads every CSV file in one transaction: whichever other CSV files of the directory or archive are loaded at the same time, whatever fails and wherever the process ends, the rows of a file are all in the database, once, or none of them is. A file reported as loaded is there, a file reported as failed is not.", "quantifier": "every interleaving of the goroutines, every connection a transaction begins on, every outcome of every statement, every number of files and batches, crashes at every point", "why_tests_cant": "The outcome depends on the schedule of the goroutines and on which statement fails; a test sees one schedule.", "anchors": ["ddl/load_cmd.go: LoadCmd.loadCSV, loadZip, loadTgz, loadDir"]}
{"id": "C90", "title": "The rows of CSV files are inserted under the session setting the load asks for", "statement": "Every row that sqddl load inserts from a CSV file is inserted while the time zone of the session is UTC (Postgres), so that timestamps mean what they meant in the dump, or while foreign_key_checks is 0 (MySQL), whichever other files are loaded at the same time.", "quantifier": "every interleaving of the goroutines, every setting of every connection before", "why_tests_cant": "The setting belongs to the connection and the order in which goroutines change it is up to the scheduler.", "anchors": ["ddl/load_cmd.go: LoadCmd.loadCSV, loadZip, loadDir, setSessionValue"]}
{"id": "C91", "title": "After a load the connections have the settings they had", "statement": "When sqddl load has loaded the CSV files, with or without errors, no connection of the pool is in a transaction and every connection has the session setting (time zone, foreign_key_checks) that it had before.", "quantifier": "every interleaving of the goroutines, every failure of any statement, cancellation of the other goroutines after an error", "why_tests_cant": "A setting that stays changed shows only on a later use of the same pooled connection, after a failure of another goroutine.", "anchors": ["ddl/load_cmd.go: LoadCmd.loadCSV, loadDir, setSessionValue"]}
{"id": "C92", "title": "A dump that succeeds has all rows of all tables", "statement": "If sqddl dump into a directory returns no error, the CSV file of every table holds the header and all rows of the table, whichever tables are written at the same time.", "quantifier": "every number of tables and rows, every interleaving of the goroutines and of the writes of their buffers, every point at which the connection breaks", "why_tests_cant": "Needs a connection that breaks in the middle of a result, or a particular schedule.", "anchors": ["ddl/dump_cmd.go: DumpCmd.dumpDir, dumpCSV"]}
{"id": "C93", "title": "A dump shows one state of the database", "statement": "The CSV files of a dump show the tables as they were at one point of time, so that the references between the dumped rows are those of the database.", "quantifier": "every sequence of changes by other users of the database during the dump, every interleaving", "why_tests_cant": "Depends on what others do between two queries of the dump.", "anchors": ["ddl/dump_cmd.go: DumpCmd.dumpDir, dumpCSV"]}
{"id": "C94", "title": "Several migrate commands at the same time apply every migration once", "statement": "When several sqddl migrate commands run on one database at the same time, every migration takes effect at most once.", "quantifier": "every number of commands, every interleaving of their reads of the history and their transactions, every failure", "why_tests_cant": "Depends on the schedule of several processes.", "anchors": ["ddl/migrate_cmd.go: MigrateCmd.Run"]}
{"id": "C95", "title": "Loading the SQL files of a dump into an empty database recreates the schema", "statement": "If sqddl dump writes schema.sql, indexes.sql and constraints.sql of a database, then an empty database of the same kind accepts the statements of the three files in this order, and ends up with the same schemas, tables, columns, constraints and indexes as the database that was dumped.", "quantifier": "every catalog: any number of schemas, tables, columns, indexes and constraints, any names, any references between tables, circular ones too; Postgres, MySQL and SQL Server", "why_tests_cant": "Whether the files are accepted depends on the order of the statements and on the references between the tables of any database; a test has a few databases.", "anchors": ["ddl/dump_cmd.go: DumpCmd.dumpSchema, dumpIndexes, dumpConstraints, writeCreateSchema, writeCreateTable, writeCreateIndex, writeConstraintDefinition"]}
{"id": "C96", "title": "A zip, a tgz and a directory hold the same dump, and loading it runs the whole of it in order", "statement": "Whether sqddl dump writes a zip file, a tgz file or a directory: a sqddl load of it that reports success has run schema.sql, then every CSV file of the dump once, then indexes.sql, then constraints.sql, with the texts that were dumped, and nothing else. With -schema-only there are no CSV files, with -data-only nothing but CSV files.", "quantifier": "every catalog, every set of tables with any rows, every name of the archive, both options, every order of the files in the directory, every schedule and every outcome of the jobs", "why_tests_cant": "Depends on the names of tables and archives and on the way entries are found again; a file that is skipped causes no error.", "anchors": ["ddl/dump_cmd.go: DumpCmd.dumpZip, dumpTgz, dumpDir", "ddl/load_cmd.go: LoadCmd.loadZip, loadTgz, loadDir"]}
{"id": "C97", "title": "Every row that is dumped is loaded again", "statement": "The query that sqddl dump sends for a table selects exactly the columns that are not generated, from that table and no other, in the order of its primary key, so that the file of a table with a primary key does not depend on the order in which the database has the rows. The CSV file that is written from the answer is loaded into the table of the same schema and name, and the INSERTs of a load that succeeds have every row of the table exactly once, with the values that it had in every column.", "quantifier": "every catalog and table, any names, any number of rows and columns, any values, every order in which the database answers, every size of batches, every failure", "why_tests_cant": "Depends on the names, types and values of all tables and on the order of rows that a database happens to return.", "anchors": ["ddl/dump_cmd.go: DumpCmd.Run, dumpCSV", "ddl/load_cmd.go: LoadCmd.loadCSV", "ddl/batch_insert.go: BatchInsert.ExecContext"]}
{"id": "C98", "title": "Loading a dump of a Postgres database recreates its extensions, enums and domains", "statement": "If sqddl dump writes the files of a Postgres database, then an empty database accepts their statements in order and ends up with the same extensions, the same enums with the same labels in the same order, the same domains with the same types, defaults, collations and constraints, and the same tables whose columns use them.", "quantifier": "every catalog with any number of extensions, schemas, enums, domains and tables, any names and labels, any uses of types by domains and columns", "why_tests_cant": "Depends on the names of all types and on which type uses which; the order of the statements is right for some databases only.", "anchors": ["ddl/dump_cmd.go: DumpCmd.dumpSchema, writeColumnDefinition", "ddl/database_introspector.go: GetDomains, GetColumns", "ddl/introspection_scripts/postgres_domains.sql", "ddl/introspection_scripts/postgres_columns.sql"]}
{"id": "C99", "title": "Generate reads the schema of a dump as it was dumped", "statement": "If sqddl dump writes schema.json, an archive or a directory of a database, then sqddl generate with that file, archive or directory as -src or -dest works with the catalog that was dumped: every schema, table, column, constraint, index, trigger, enum and domain with all its fields. schema.json is valid JSON. Between two dumps of the same database there is nothing to migrate, and an archive without a schema is refused.", "quantifier": "every catalog: any number of objects, any names, comments and expressions with any characters, any attributes; file, zip, tgz and directory; every -dialect", "why_tests_cant": "Depends on every field of every object and on the characters in all texts; a field that is not read back causes no error but a migration that changes the database.", "anchors": ["ddl/dump_cmd.go: DumpCmd.dumpZip, dumpTgz, dumpDir", "ddl/generate_cmd.go: GenerateCommand, writeCatalog, writeCatalogFromZip, writeCatalogFromTgz", "ddl/ddl.go: Catalog"]}
{"id": "C100", "title": "Several schema files given to generate are put together", "statement": "If -src or -dest of sqddl generate names several files that hold schemas in JSON, then the catalog that generate works with has all the schemas, tables and columns of all the files, each as its file describes it.", "quantifier": "every list of JSON files with any catalogs", "why_tests_cant": "Depends on how the contents of all files fall on each other; a table that is lost causes no error but a migration that drops it.", "anchors": ["ddl/generate_cmd.go: GenerateCommand, writeCatalog"]}
{"id": "C101", "title": "A SQLite database that is dumped and loaded has the same definitions", "statement": "If the SQL files that sqddl dump writes for a SQLite database are run in an empty SQLite database in the order schema.sql, indexes.sql, constraints.sql, then every statement is accepted, and afterwards the new database has exactly the tables, virtual tables and indexes of the first, each with the definition it was made with: every column, constraint, default and expression, token by token.", "quantifier": "every SQLite database: any number of tables and indexes with any definitions and names, any order of the answers of the database", "why_tests_cant": "Depends on the texts of all definitions, which are cut out, changed and written one after the other, and on all names; a definition that runs into the next or a name that leaves its comment spoils the rest of the file.", "anchors": ["ddl/dump_cmd.go: DumpCmd.dumpSchema, dumpIndexes, dumpConstraints, writeCreateTable, writeCreateIndex", "ddl/database_introspector.go: GetTables, GetIndexes, WriteCatalog"]}
{"id": "C102", "title": "The query of a subset dump selects the rows that were asked for", "statement": "After any subset queries, the query that sqddl dump runs for a table is accepted by the database: every column in it belongs to exactly one table of its scope. Its answer has the columns of the table that are not generated, for exactly the rows that one of the subset queries asks for or that a row asked for needs by its foreign keys (with -extended-subset also the rows that refer to them), each row once, in the order of the primary key. If there is no query then there is no such row.", "quantifier": "every catalog with any foreign keys, any number of subset and extended subset queries with any keys, any names, every database that the query is run in, every dialect", "why_tests_cant": "Depends on all foreign keys, on the names of all tables and columns and on the order and number of the subset queries; a query with a wrong join still runs, with rows missing or too many.", "anchors": ["ddl/subsetter.go: Subsetter.Subset, ExtendedSubset, Query, join.toSQL", "ddl/dump_cmd.go: DumpCmd.Run"]}
{"id": "C103", "title": "The statements of a batch insert do what was asked", "statement": "If a batch insert (as used by sqddl load, touch and migrate) reports success, then every statement it sent is one that the database accepts, and the table afterwards has for every key the row that inserting or replacing all rows one after the other gives: new rows have the given values and the defaults of the other columns, rows that were there have the new values in the given columns and keep all others, and all other rows are unchanged. If the key is not among the columns, then every row is added and none is changed.", "quantifier": "every table and column names, any number of rows, columns and keys, any values and NULLs, every size of batches, every dialect, any contents of the table before", "why_tests_cant": "Depends on the numbers of all parameters, on the quoting of all names and on the rows that are in the table; a parameter that is off by one puts values into the wrong column without an error.", "anchors": ["ddl/batch_insert.go: BatchInsert.ExecContext"]}
{"id": "C104", "title": "The statements on the history table act on the files that were named", "statement": "What sqddl migrate and ls know about a file is its row of the history table: the query finds the rows of all given files and of no other, whatever characters the names have. rm deletes exactly the rows of the given files, mv renames exactly the row of the file and is refused if the new name is taken, ls -missing names exactly the rows without a file with repeatable files last, and touch and migrate leave the recorded rows in the table with all other rows as they were. The table that is created for this has the name of the file as its key.", "quantifier": "every table with any rows, any number of files with any names, every name of the history table, every order in which the database answers, every dialect", "why_tests_cant": "Depends on the quoting of every file name, on the comparison of texts of the database and on all rows of the table; tests use a few plain names and an empty table.", "anchors": ["ddl/migrate_cmd.go: MigrateCmd.Run", "ddl/ls_cmd.go: LsCmd.Run", "ddl/rm_cmd.go: RmCmd.Run", "ddl/mv_cmd.go: MvCmd.Run", "ddl/touch_cmd.go: TouchCmd.Run, ensureHistoryTableExists"]}
{"id": "C105", "title": "The history table is created if it is not there", "statement": "sqddl touch and migrate find the history table in the current schema if and only if there is one, whatever other tables, views, indexes and schemas the database has. If there is one, it is used as it is. Otherwise it is created, nothing else in the database changes, and the next command finds it. An error is reported exactly if there is no such table and another object has a name that is needed.", "quantifier": "every database with any schemas and objects of any names and kinds, every name of the history table, every dialect, every way in which the database compares names", "why_tests_cant": "Depends on the contents of the catalog tables and on which names share a namespace in the database; tests start with an empty schema.", "anchors": ["ddl/touch_cmd.go: historyTableExists, ensureHistoryTableExists"]}
{"id": "C106", "title": "A command line runs what it says", "statement": "A call of sqddl with a subcommand, flags and file names runs that subcommand with every flag set to the value that was written last, or to its default, whether -db and -history-table stand in front of the subcommand or behind it and in whichever notation flags are written, and with the given file names in their order. Nothing is run if a flag is unknown, has no value or an unreadable one, or if the database or a directory that is needed is missing. The exit status is 0 if and only if the subcommand ran without an error or help was asked for.", "quantifier": "every list of arguments of any length, all twelve subcommands with all flags and notations, any values, every outcome of the command", "why_tests_cant": "Depends on where every argument stands; a flag that is taken for a file name is lost without a message, and a command line that does nothing looks like success to a script.", "anchors": ["main.go: main", "ddl/*_cmd.go: MigrateCommand, LsCommand, TouchCommand, RmCommand, MvCommand, TablesCommand, ViewsCommand, GenerateCommand, WipeCommand, DumpCommand, LoadCommand, AutomigrateCommand"]}
{"id": "C107", "title": "A driver gets the database URL that was given", "statement": "Before a database is opened its URL passes through the driver package. Afterwards it names the same user, password, host and database, every parameter of the URL has the values that it had in their order, and a parameter that was not set has the default of the driver package (sslmode=disable in Postgres, _foreign_keys=true in SQLite unless _fk or _foreign_keys is set, allowAllFiles, multiStatements and parseTime in MySQL). The path of a SQL Server URL is the database. A URL whose query cannot be read is left as it is.", "quantifier": "every URL with any bytes in its parts, any number of parameters and values, escaped or not, every driver", "why_tests_cant": "Depends on every character of a password or a parameter and on the reader of the driver; a URL that is changed on the way opens another database or is refused with a misleading message.", "anchors": ["drivers/ddlpgx/ddlpgx.go: Register", "drivers/ddlpostgres/ddlpostgres.go: Register", "drivers/ddlsqlite3/ddlsqlite3.go: Register", "drivers/ddlmysql/ddlmysql.go: Register", "drivers/ddlsqlserver/ddlsqlserver.go: Register"]}
{"id": "C108", "title": "The report of a failed migration says what the database said", "statement": "If a script fails in Postgres (driver lib/pq) or SQL Server, the error names the line of the script at which the database found the error, followed by the message of the database, its details and its hint, or all messages if there are several, each as the database wrote it. The report does not crash the program. A script that failed because a lock was not granted in time is recognised by its error code in Postgres, MySQL, SQL Server and Oracle, with or without the annotation, and nothing else is, so that exactly those are tried again.", "quantifier": "every script with any characters and lines, every position, line, message, detail, hint and code that a database can report", "why_tests_cant": "Depends on the position of the error in the script and on the characters in front of it and in the messages; the code runs only when something else has gone wrong.", "anchors": ["drivers/ddlpostgres/ddlpostgres.go: Register", "drivers/ddlsqlserver/ddlsqlserver.go: Register", "ddl/migrate_cmd.go: MigrateCmd.run, runWithRetry"]}
{"id": "C109", "title": "The objects that are read are those that are not the database's own", "statement": "sqddl tables, dump, generate and wipe read a database with introspection scripts. They report every table, every index that was not made for a constraint and every routine of the database, each once and with its own comment and all its columns, except what the database keeps for itself and what the lists of included and excluded schemas, tables and routines leave out, and nothing else.", "quantifier": "all contents of the catalog tables: any schemas, tables, indexes, constraints, comments and routines with any names; all lists of names; the four dialects", "why_tests_cant": "Depends on every name in the database; a name that a pattern matches by accident is missing from a dump, and dropped or kept by mistake, without any message.", "anchors": ["ddl/introspection_scripts/postgres_tables.sql, postgres_indexes.sql", "ddl/introspection_scripts/mysql_tables.sql, mysql_indexes.sql, mysql_routines.sql", "ddl/introspection_scripts/sqlite_tables.sql, sqlite_columns.sql", "ddl/introspection_scripts/sqlserver_tables.sql, sqlserver_routines.sql"]}
{"id": "C110", "title": "Constraints are read as they were defined", "statement": "For every table that is asked for, the primary key, the unique constraints, the foreign keys, the exclusion constraints and (except in SQLite) the checks are reported, each once and no others, with the columns in the order in which they stand in the constraint, and for foreign keys with the referenced table, the referenced columns in the matching order, the actions, the kind of matching, and whether it is deferred or not validated.", "quantifier": "all contents of the catalog tables or pragmas in any order of their rows: any schemas, tables, columns and constraints with any names and any number of columns; all lists of names; Postgres, MySQL, SQLite, SQL Server", "why_tests_cant": "Depends on the join of several catalog tables and on the order of aggregated rows, which differ with every schema; a key whose columns are swapped or doubled is wrong in every dump and migration made from it.", "anchors": ["ddl/introspection_scripts/postgres_constraints.sql", "ddl/introspection_scripts/mysql_constraints.sql", "ddl/introspection_scripts/sqlite_constraints.sql", "ddl/introspection_scripts/sqlserver_constraints.sql"]}
{"id": "C111", "title": "Indexes are read as they were defined", "statement": "For every table that is asked for, the indexes that were not made for constraints are reported, each once and no others, with the key columns in the order in which they stand in the index, the direction of each, the included columns, the type of the index, whether it is unique, its condition, and (in MySQL and Postgres) the expressions in their places.", "quantifier": "all contents of the catalog tables or pragmas in any order of their rows: any tables and indexes with any names, any number of key columns, expressions and included columns; all lists of names; the four dialects", "why_tests_cant": "Depends on joins and on the order of aggregated rows with equal sort keys, which differ with every schema; an index whose columns are permuted is accepted everywhere and only makes queries slow or a unique index wrong.", "anchors": ["ddl/introspection_scripts/postgres_indexes.sql", "ddl/introspection_scripts/mysql_indexes.sql", "ddl/introspection_scripts/sqlite_indexes.sql", "ddl/introspection_scripts/sqlserver_indexes.sql", "ddl/database_introspector.go: GetIndexes"]}
{"id": "C112", "title": "Columns are read as they were defined", "statement": "For every table that is asked for, the columns are reported in the order in which they stand in the table, each once and no others (no dropped columns, no columns of the system), with its name, its type with length, precision and scale (for a domain the type that it stands for and the name of the domain), whether it is an enum, whether NULL is refused, identity or auto-increment, ON UPDATE CURRENT_TIMESTAMP, the expression of a generated column and whether it is stored, the default, the collation unless it is the default one, and the comment.", "quantifier": "all contents of the catalog tables in any order of their rows: any tables with any number of columns, dropped ones in between, any types, modifiers, domains, expressions and comments; all lists of names; Postgres, MySQL, SQL Server", "why_tests_cant": "Depends on left joins that must give one row for every column and on texts and packed numbers of the catalog that differ with the definition; an attribute that is lost is missing in every dump and every migration made from it.", "anchors": ["ddl/introspection_scripts/postgres_columns.sql", "ddl/introspection_scripts/mysql_columns.sql", "ddl/introspection_scripts/sqlserver_columns.sql"]}
{"id": "C113", "title": "Types, views and triggers are read as they were defined", "statement": "The enums with their labels in order, the domains with type, collation, default and checks, the views with definition and columns in order, and the triggers with their definition are reported, each once and no others, with their own comments, for the schemas, tables, views, enums and domains that are asked for.", "quantifier": "all contents of the catalog tables in any order of their rows: any enums, domains, views, triggers and comments with any names; all lists of names; Postgres for all four, MySQL for views, SQL Server for triggers", "why_tests_cant": "Depends on names, comments and object numbers that differ with every database; a view that is read under another name or a comment that is looked up in the wrong place gives no message.", "anchors": ["ddl/introspection_scripts/postgres_enums.sql, postgres_domains.sql, postgres_views.sql, postgres_triggers.sql", "ddl/introspection_scripts/mysql_views.sql", "ddl/introspection_scripts/sqlserver_triggers.sql", "ddl/database_introspector.go: GetTriggers"]}
{"id": "C114", "title": "Routines, and the views and triggers of the other databases, are read as they were defined", "statement": "The routines of Postgres with arguments, kind, definition, result and comment, its extensions, the triggers of MySQL, the views and triggers of SQLite and the views of SQL Server are reported, each once and no others, for the schemas, tables, views, routines and extensions that are asked for; routines of extensions are left out; a trigger is kept with its table or view.", "quantifier": "all contents of the catalog tables in any order of their rows: any routines, extensions, dependencies, comments, views and triggers with any names; all lists of names", "why_tests_cant": "Depends on kinds of objects (aggregates, encrypted modules, triggers of views) and on object numbers that differ with every database; one such object makes the whole command fail or is lost without a message.", "anchors": ["ddl/introspection_scripts/postgres_routines.sql, postgres_extensions.sql", "ddl/introspection_scripts/mysql_triggers.sql", "ddl/introspection_scripts/sqlite_triggers.sql, sqlite_views.sql", "ddl/introspection_scripts/sqlserver_views.sql", "ddl/database_introspector.go: GetRoutines, GetTriggers, GetViews, WriteCatalog"]}
{"id": "C115", "title": "Stored procedures and functions of MySQL and SQL Server are read as they were defined", "statement": "The procedures and functions of MySQL are reported with their kind, parameters in order (with IN, OUT or INOUT for procedures), result, body with line breaks as \\n, comment, and whether they are deterministic, which data they access and with whose rights they run; those of SQL Server with their kind and definition. Each is reported once and no others are, for the schemas and routines that are asked for, and reading does not fail.", "quantifier": "all contents of the catalog tables in any order of their rows: any routines and parameters with any names and types, functions with and without parameters, encrypted modules; all lists of names", "why_tests_cant": "Depends on rows in which the database puts NULL and on names that two kinds of routines may share; one such routine makes dump, generate and wipe fail, or gets the parameters of another without a message.", "anchors": ["ddl/introspection_scripts/mysql_routines.sql, sqlserver_routines.sql", "ddl/database_introspector.go: GetRoutines, WriteCatalog"]}
{"id": "C116", "title": "Reading the same database again gives the same order", "statement": "If a database has not changed, reading it again reports the same objects in the same order, in whatever order the database stores its rows, so that dumped schemas and generated structs do not change from one run to the next. Covered: tables; triggers of Postgres, MySQL and SQLite; views of SQLite; routines of Postgres and SQL Server; extensions; foreign keys of SQLite.", "quantifier": "all contents of the catalog tables, all permutations of their rows, all orders in which a database may compare names, and all answers that its ORDER BY allows", "why_tests_cant": "A database in a test stores its rows in the order of their creation and gives rows that compare as equal in the same order for years; another server, or the same one after an update, may not.", "anchors": ["ddl/introspection_scripts/*_tables.sql", "ddl/introspection_scripts/mysql_triggers.sql, postgres_triggers.sql, sqlite_triggers.sql, sqlite_views.sql, postgres_routines.sql, sqlserver_routines.sql, postgres_extensions.sql, sqlite_constraints.sql: ORDER BY", "ddl/database_introspector.go: WriteCatalog"]}
