{
 "claims": [
  {
   "property": "C01",
   "status": "partial",
   "theorems": [
    "Sqddl.Migrate.migrate_skips_applied_partial",
    "Sqddl.Migrate.migrate_never_again_partial",
    "Sqddl.Migrate.migrate_applied_twice_listed_refuted",
    "Sqddl.Migrate.migrate_applied_quoted_name_refuted"
   ],
   "note": "Proved for listings without repeated names and for names that a literal written with EscapeQuote denotes; refuted for a file listed twice and for names with adjacent quotes."
  },
  {
   "property": "C02",
   "status": "proved",
   "theorems": [
    "Sqddl.Migrate.migrate_order",
    "Sqddl.Migrate.migrate_executes_in_order",
    "Sqddl.sortAndFilter_order"
   ],
   "note": ""
  },
  {
   "property": "C03",
   "status": "proved",
   "theorems": [
    "Sqddl.Migrate.runWithRetry_atomic",
    "Sqddl.Migrate.migrate_atomic"
   ],
   "note": ""
  },
  {
   "property": "C04",
   "status": "proved",
   "theorems": [
    "Sqddl.Migrate.migrate_stops_at_failure"
   ],
   "note": ""
  },
  {
   "property": "C05",
   "status": "partial",
   "theorems": [
    "Sqddl.Migrate.migrate_ok_uptodate",
    "Sqddl.Migrate.migrate_again_noop",
    "Sqddl.Migrate.migrate_uptodate_noop",
    "Sqddl.Migrate.migrate_again_twice_listed_refuted"
   ],
   "note": "Refuted for a file listed twice."
  },
  {
   "property": "C06",
   "status": "partial",
   "theorems": [
    "Sqddl.Migrate.migrate_nothing_lost",
    "Sqddl.Migrate.migrate_pending_shrinks",
    "Sqddl.Migrate.migrate_progress",
    "Sqddl.Migrate.migrate_exactly_once",
    "Sqddl.Migrate.runWithRetry_records_failure",
    "Sqddl.Migrate.migrate_exactly_once_notx_refuted",
    "Sqddl.Migrate.migrate_records_lock_refuted"
   ],
   "note": "Exactly once is proved for transactional files; outside transactions a crash between script and history row repeats the script. A failure by lock timeout is not recorded."
  },
  {
   "property": "C07",
   "status": "proved",
   "theorems": [
    "Sqddl.crlfToLf_eq_iff",
    "Sqddl.Migrate.migrate_executes_iff",
    "Sqddl.Migrate.repeatable_rerun_iff_changed"
   ],
   "note": "Under the hypothesis that the hash does not collide on the two contents."
  },
  {
   "property": "C08",
   "status": "proved",
   "theorems": [
    "Sqddl.Migrate.migrate_batches"
   ],
   "note": ""
  },
  {
   "property": "C09",
   "status": "proved",
   "theorems": [
    "Sqddl.Migrate.migrate_attempts_bounded",
    "Sqddl.Migrate.retryLoop_no_retry",
    "Sqddl.Migrate.run_lock_last"
   ],
   "note": ""
  },
  {
   "property": "C10",
   "status": "partial",
   "theorems": [
    "Sqddl.Migrate.retryDelay_bounds",
    "Sqddl.Migrate.retryDelay_defined_partial",
    "Sqddl.Migrate.retryDelay_short_refuted",
    "Sqddl.Migrate.retryDelay_overflow_refuted",
    "Sqddl.Migrate.migrate_delay_panic_refuted",
    "Sqddl.Migrate.migrate_begin_lock_panic_refuted"
   ],
   "note": "The bounds are proved; computing the delay can crash."
  },
  {
   "property": "C11",
   "status": "proved",
   "theorems": [
    "Sqddl.Migrate.migrate_undo_only",
    "Sqddl.Migrate.migrate_undo_always"
   ],
   "note": ""
  },
  {
   "property": "C12",
   "status": "proved",
   "theorems": [
    "Sqddl.isMigrationFile_iff",
    "Sqddl.mem_sortAndFilter",
    "Sqddl.sortAndFilter_count",
    "Sqddl.sortAndFilter_nodup",
    "Sqddl.sortAndFilter_eq"
   ],
   "note": ""
  },
  {
   "property": "C13",
   "status": "proved",
   "theorems": [
    "Sqddl.Migrate.ls_eq_pending",
    "Sqddl.Migrate.ls_then_migrate",
    "Sqddl.Migrate.migrate_started",
    "Sqddl.Migrate.touch_started",
    "Sqddl.Migrate.rm_mv_started",
    "Sqddl.Migrate.ls_null_started_refuted"
   ],
   "note": "For histories written by the program; a row made by other means can make the two disagree."
  },
  {
   "property": "C14",
   "status": "proved",
   "theorems": [
    "Sqddl.Migrate.ls_classifies",
    "Sqddl.Migrate.ls_flags_hide"
   ],
   "note": ""
  },
  {
   "property": "C15",
   "status": "proved",
   "theorems": [
    "Sqddl.Migrate.touch_marks",
    "Sqddl.Migrate.touch_all_or_nothing",
    "Sqddl.Migrate.touch_then_migrate",
    "Sqddl.Migrate.touch_twice"
   ],
   "note": ""
  },
  {
   "property": "C16",
   "status": "partial",
   "theorems": [
    "Sqddl.Migrate.rm_exact",
    "Sqddl.Migrate.rm_ok_iff",
    "Sqddl.Migrate.mv_exact",
    "Sqddl.Migrate.mv_frame",
    "Sqddl.Migrate.rm_exact_refuted"
   ],
   "note": "For names without two adjacent quotes (and without backslash on MySQL); refuted for the others."
  },
  {
   "property": "C17",
   "status": "partial",
   "theorems": [
    "Sqddl.Migrate.rm_reports",
    "Sqddl.Migrate.touch_reports",
    "Sqddl.Migrate.mv_reports_refuted",
    "Sqddl.Migrate.mv_swallows_errors"
   ],
   "note": "Refuted for mv, which drops the error."
  },
  {
   "property": "C18",
   "status": "partial",
   "theorems": [
    "Sqddl.quoteIdentifier_one_token",
    "Sqddl.quoteIdentifier_denotes_partial",
    "Sqddl.quoteIdentifier_injective_partial",
    "Sqddl.quoteIdentifier_injective_refuted",
    "Sqddl.quoteIdentifier_denotes_refuted"
   ],
   "note": ""
  },
  {
   "property": "C19",
   "status": "proved",
   "theorems": [
    "Sqddl.quoteIdentifier_unquoted_iff"
   ],
   "note": ""
  },
  {
   "property": "C20",
   "status": "proved",
   "theorems": [
    "Sqddl.escapeQuote_stays_inside"
   ],
   "note": ""
  },
  {
   "property": "C21",
   "status": "partial",
   "theorems": [
    "Sqddl.escapeQuote_reads_back_iff_partial",
    "Sqddl.escapeQuote_reads_back_refuted",
    "Sqddl.escapeQuote_injective_refuted"
   ],
   "note": "Exact characterisation of the strings that read back; refuted in general."
  },
  {
   "property": "C22",
   "status": "partial",
   "theorems": [
    "Sqddl.sprintString_evaluates_partial",
    "Sqddl.sprintString_one_line",
    "Sqddl.sprintString_mysql_refuted",
    "Sqddl.sprintString_sqlserver_refuted"
   ],
   "note": ""
  },
  {
   "property": "C23",
   "status": "partial",
   "theorems": [
    "Sqddl.Sprintf.sprintf_filled_partial",
    "Sqddl.Sprintf.sprintf_no_args",
    "Sqddl.Sprintf.sprintf_panic",
    "Sqddl.Sprintf.sprintf_panic_refuted",
    "Sqddl.Sprintf.sprintf_adjacent_refuted",
    "Sqddl.Sprintf.sprintf_backslash_refuted",
    "Sqddl.Sprintf.sprintf_sqlite_backquote_refuted"
   ],
   "note": "For queries whose parameters are not directly followed by a quote or another parameter; refuted for those, for backslash escapes of MySQL, for backquoted identifiers of SQLite, and it crashes for SQLite if an argument is missing."
  },
  {
   "property": "C24",
   "status": "partial",
   "theorems": [
    "Sqddl.splitArgs_loses_nothing",
    "Sqddl.splitArgs_args_partial",
    "Sqddl.splitArgs_args_refuted"
   ],
   "note": "Nothing is lost; separators are right unless a string literal inside of brackets contains a bracket, for which it is refuted."
  },
  {
   "property": "C25",
   "status": "proved",
   "theorems": [
    "Sqddl.generateName_length",
    "Sqddl.generateName_no_space",
    "Sqddl.generateName_form"
   ],
   "note": ""
  },
  {
   "property": "C26",
   "status": "partial",
   "theorems": [
    "Sqddl.generateName_injective_partial",
    "Sqddl.generateName_kind",
    "Sqddl.generateName_injective_refuted"
   ],
   "note": "Refuted: underscores and spaces in names make different keys collide."
  },
  {
   "property": "C27",
   "status": "partial",
   "theorems": [
    "Sqddl.normalizeColumnType_case",
    "Sqddl.normalizeColumnType_aliases",
    "Sqddl.normalizeColumnType_mysql_bool",
    "Sqddl.normalizeColumnType_stable_partial",
    "Sqddl.normalizeColumnType_stable_refuted",
    "Sqddl.normalizeColumnType_panics",
    "Sqddl.normalizeColumnType_total_refuted"
   ],
   "note": "Crashes exactly if a closing bracket occurs without an opening one; not stable for a few odd inputs."
  },
  {
   "property": "C28",
   "status": "partial",
   "theorems": [
    "Sqddl.normalizeColumnDefault_stable_partial",
    "Sqddl.normalizeColumnDefault_stable_refuted"
   ],
   "note": "Refuted for Postgres defaults with a cast."
  },
  {
   "property": "C29",
   "status": "proved",
   "theorems": [
    "Sqddl.lowerThan_iff",
    "Sqddl.greaterOrEqualTo_iff",
    "Sqddl.lowerThan_order"
   ],
   "note": ""
  },
  {
   "property": "C30",
   "status": "partial",
   "theorems": [
    "Sqddl.modifiers_roundtrip_partial",
    "Sqddl.modifiers_roundtrip_raw_partial",
    "Sqddl.parseRawValue_content",
    "Sqddl.parseRawValue_idem",
    "Sqddl.modifiers_roundtrip_refuted",
    "Sqddl.excludesDialect_iff"
   ],
   "note": "Refuted for dialects, for a first modifier of one byte and for values that start with a brace."
  },
  {
   "property": "C31",
   "status": "partial",
   "theorems": [
    "Sqddl.cache_latest_partial",
    "Sqddl.column_latest",
    "Sqddl.find_upsert",
    "Sqddl.find_ensure",
    "Sqddl.table_columns_not_found_refuted",
    "Sqddl.table_replaced_panics_refuted",
    "Sqddl.pkey_stale_refuted",
    "Sqddl.ignored_duplicate_refuted",
    "Sqddl.routine_arguments_refuted",
    "Sqddl.shared_index_refuted"
   ],
   "note": "For objects that are not ignored, named constraints, and tables/schemas that are added empty or updated with the objects they have; each condition is shown to be needed by a counterexample. GetPrimaryKey and GetForeignKeys are not covered."
  },
  {
   "property": "C32",
   "status": "partial",
   "theorems": [
    "Sqddl.writeCatalog_copies_partial",
    "Sqddl.writeCatalog_equal",
    "Sqddl.virtual_lost_refuted",
    "Sqddl.unnamed_constraints_lost_refuted"
   ],
   "note": "Equality for catalogs without virtual tables and with at most one unnamed constraint per table; refuted otherwise. Sharing of memory is not modelled."
  },
  {
   "property": "C33",
   "status": "partial",
   "theorems": [
    "Sqddl.diff_self",
    "Sqddl.sqlite_diff_self",
    "Sqddl.mysql_self",
    "Sqddl.pg_self",
    "Sqddl.sqlserver_self",
    "Sqddl.sqlite_self",
    "Sqddl.sqlite_check_self_refuted"
   ],
   "note": "All four dialects, up to the files and warnings; SQLite catalogs with CHECK constraints (which introspection does not produce) differ from themselves."
  },
  {
   "property": "C34",
   "status": "partial",
   "theorems": [
    "Sqddl.nothing_dropped",
    "Sqddl.mysql_only_replaced",
    "Sqddl.pg_only_replaced",
    "Sqddl.mssql_only_replaced_partial",
    "Sqddl.mssql_pkey_lost_refuted",
    "Sqddl.sqlite_nothing_dropped"
   ],
   "note": "SQL Server can lose a primary key if its new name belongs to a unique constraint."
  },
  {
   "property": "C35",
   "status": "partial",
   "theorems": [
    "Sqddl.createTables_exact",
    "Sqddl.createSchemas_exact",
    "Sqddl.addColumns_exact",
    "Sqddl.addFkeys_exact",
    "Sqddl.createIndexes_exact",
    "Sqddl.pg_addConstraints_exact",
    "Sqddl.mysql_addConstraints_exact",
    "Sqddl.alters_once",
    "Sqddl.sqlite_createTables_exact",
    "Sqddl.sqlite_addColumns_exact",
    "Sqddl.sqlite_createIndexes_exact",
    "Sqddl.sqlite_ignored_table_refuted",
    "Sqddl.check_not_added_refuted"
   ],
   "note": "Refuted for ignored tables of SQLite when the source is empty."
  },
  {
   "property": "C36",
   "status": "partial",
   "theorems": [
    "Sqddl.dropSchemas_exact",
    "Sqddl.dropTables_exact",
    "Sqddl.dropTables_iff",
    "Sqddl.dropFkeys_exact",
    "Sqddl.dropIndexes_exact",
    "Sqddl.pg_dropConstraints_exact",
    "Sqddl.mysql_dropConstraints_exact",
    "Sqddl.dropColumns_partial",
    "Sqddl.nameless_schema_refuted",
    "Sqddl.surplus_column_kept_refuted",
    "Sqddl.sqlite_dropTables_exact",
    "Sqddl.sqlite_dropIndexes_exact",
    "Sqddl.sqlite_dropColumns_partial",
    "Sqddl.sqlite_surplus_column_kept_refuted"
   ],
   "note": "Refuted: surplus columns stay if the table has no other difference."
  },
  {
   "property": "C37",
   "status": "partial",
   "theorems": [
    "EngineSpec.plan_adds_fkeys",
    "EngineSpec.plan_drops_fkeys",
    "EngineSpec.mysql_files_fkeys",
    "Sqddl.Postgres.pg_adds_fkeys_partial",
    "Sqddl.Postgres.pg_validates_fkeys_partial",
    "Sqddl.Postgres.pg_drops_fkeys_partial",
    "Sqddl.Postgres.pg_files_fkeys_partial",
    "Sqddl.Postgres.Mutual.mutual_fkeys_refuted",
    "Sqddl.Sqlserver.ms_fkeys_partial",
    "Sqddl.Sqlserver.ms_files_fkeys_partial",
    "Sqddl.mssqlFkeys_grouped",
    "Sqddl.Sqlserver.Redo.ms_fkeys_panic_refuted",
    "Sqddl.Sqlserver.Redo.ms_fkey_lost_refuted",
    "Sqddl.Sqlserver.Redo.ms_fkey_twice_refuted"
   ],
   "note": "MySQL, Postgres and SQL Server; refuted for Postgres when two tables reference each other, for SQL Server when a foreign key is added between two tables and a column of another one between them changes (panic, or a lost and a doubled foreign key) and when two columns of a foreign key change."
  },
  {
   "property": "C38",
   "status": "partial",
   "theorems": [
    "EngineSpec.plan_converges",
    "PgSpec.pg_plan_converges_partial",
    "PgSpec.pg_files_converge_partial",
    "PgSpec.Pets.pg_surplus_pkey_refuted",
    "PgSpec.Pets.pg_generated_type_refuted",
    "PgSpec.Pets.pg_renamed_key_refuted",
    "PgSpec.Pets.pg_moved_index_refuted",
    "MsSpec.ms_plan_converges_partial",
    "MsSpec.Pets.ms_default_of_dropped_refuted",
    "MsSpec.Pets.ms_default_of_altered_refuted",
    "MsSpec.Pets.ms_index_of_two_refuted",
    "MsSpec.Pets.ms_other_default_refuted",
    "MsSpec.Pets.ms_renamed_key_refuted"
   ],
   "note": "MySQL, Postgres and SQL Server: a server that refuses statements out of order accepts all of them. Refuted for Postgres: a primary key that stays although a column of it becomes nullable, a change of the type of a column that a generated column mentions, a renamed key that a foreign key references, and an index that moves to another table; for SQL Server: a column with a default that is dropped or gets another type, an index two columns of which change, a default that is looked up by the number of a column, and a renamed key."
  },
  {
   "property": "C39",
   "status": "partial",
   "theorems": [
    "Sqddl.Files.numbered_sorted",
    "Sqddl.Files.numbered_nodup",
    "Sqddl.Files.numbered_forward",
    "Sqddl.Files.listed_in_order",
    "Sqddl.Files.numbered_order_refuted"
   ],
   "note": "Proved for fewer than 100 numbers, whose names are distinct for any number of files; refuted for 100 and more."
  },
  {
   "property": "C40",
   "status": "partial",
   "theorems": [
    "Sqddl.mysql_warnings_exact",
    "Sqddl.pg_warnings_exact",
    "Sqddl.pg_varchar_narrowing_warned",
    "Sqddl.pg_numeric_narrowing_warned_partial",
    "Sqddl.pg_other_type_warned",
    "Sqddl.pg_safe_unwarned",
    "Sqddl.mysql_other_type_warned",
    "Sqddl.mysql_varchar_warned_partial",
    "Sqddl.mysql_safe_unwarned",
    "Sqddl.pg_varchar_unlimited_refuted",
    "Sqddl.pg_numeric_scale_refuted",
    "Sqddl.mysql_varchar_narrowing_refuted"
   ],
   "note": "Postgres and MySQL. Refuted: a limit for an unlimited VARCHAR and a scale of 0 (Postgres), a smaller limit on the same side of 255 (MySQL)."
  },
  {
   "property": "C41",
   "status": "partial",
   "theorems": [
    "PgSpec.pg_alter_columns_partial",
    "PgSpec.endCol_reached",
    "MsSpec.endCol_reached",
    "PgSpec.unchanged_reached",
    "PgSpec.pg_default_change_refuted",
    "PgSpec.pg_default_cut_refuted",
    "PgSpec.pg_identity_nullable_refuted",
    "PgSpec.pg_identity_default_refuted",
    "PgSpec.pg_identity_null_refuted",
    "PgSpec.pg_collation_removed_refuted",
    "PgSpec.pg_alter_key_refuted",
    "MsSpec.ms_plan_converges_partial",
    "MsSpec.Pets.ms_not_null_lost_refuted",
    "MsSpec.Pets.ms_not_null_refuted",
    "MsSpec.Pets.ms_default_collation_refuted",
    "MsSpec.Pets.ms_identity_refuted",
    "MsSpec.Pets.ms_default_of_altered_refuted"
   ],
   "note": "Postgres and SQL Server, on abstract servers without rows, for the differences that Alterable lists; the refutations show what happens outside of them. For SQL Server as part of the whole migration (ColumnReached)."
  },
  {
   "property": "C42",
   "status": "partial",
   "theorems": [
    "Sqddl.Sqlite.sqlite_keeps_rows_partial",
    "Sqddl.Sqlite.plan_keeps_rows",
    "Sqddl.Sqlite.Samples.rebuild_cascade_refuted",
    "Sqddl.Sqlite.Samples.rebuild_self_cascade_refuted",
    "Sqddl.Sqlite.Samples.drop_fkey_column_refuted",
    "Sqddl.Sqlite.Samples.case_of_column_refuted",
    "Sqddl.Sqlite.Samples.no_common_column_refuted"
   ],
   "note": "Whole migration: the text of the file is read back, and if all statements succeed on an abstract SQLite database with rows, every table that both catalogs have keeps its rows with the values of the common columns (converted at most to the affinity of the new column), and every other table that is not dropped is unchanged. If foreign keys are enforced, which is the default of the driver, this needs the condition that no foreign key references a rebuilt or dropped table; without it child rows are deleted (rebuild_cascade_refuted), also rows of a table that references itself. Success of the statements is assumed, not proved: tables without common columns, a column dropped with its foreign key and others fail. Triggers, views and virtual tables are not modelled."
  },
  {
   "property": "C43",
   "status": "proved",
   "theorems": [
    "Sqddl.Generate.generate_warnings",
    "Sqddl.Generate.generate_dryRun",
    "Sqddl.Generate.generate_prints",
    "Sqddl.Generate.generate_writes",
    "Sqddl.Generate.generate_only",
    "Sqddl.Generate.automigrate_warnings",
    "Sqddl.Generate.automigrate_blocked",
    "Sqddl.Generate.automigrate_executes",
    "Sqddl.Generate.warning_percent_refuted"
   ],
   "note": "The generated migration is an input. Refuted detail: warnings with a percent sign are mangled in the error message."
  },
  {
   "property": "C44",
   "status": "partial",
   "theorems": [
    "Sqddl.Wipe.wipe_script_partial",
    "Sqddl.Wipe.wipe_empties_partial",
    "Sqddl.Wipe.wipe_run_partial",
    "Sqddl.Wipe.wipe_dryRun",
    "Sqddl.Wipe.wipe_error",
    "Sqddl.Wipe.wipe_rollback",
    "Sqddl.Wipe.wipe_reports",
    "Sqddl.Wipe.wipe_overloaded_refuted",
    "Sqddl.Wipe.wipe_pseudo_name_refuted"
   ],
   "note": "For names that are read back as themselves and without overloaded routines; refuted for overloaded Postgres functions and for the pseudo table names."
  },
  {
   "property": "C45",
   "status": "partial",
   "theorems": [
    "Sqddl.BatchInsert.batchInsert_sends_rows",
    "Sqddl.BatchInsert.batchInsert_updates_rows",
    "Sqddl.BatchInsert.rowValues_eq",
    "Sqddl.BatchInsert.batch_text",
    "Sqddl.BatchInsert.batchInsert_panics_iff",
    "Sqddl.BatchInsert.batchInsert_negative_size_refuted",
    "Sqddl.BatchInsert.batchInsert_repeated_key_refuted"
   ],
   "note": "Holds for every batch insert whose columns are not more than the database allows; refuted beyond that, and for repeated key columns."
  },
  {
   "property": "C46",
   "status": "partial",
   "theorems": [
    "Sqddl.BatchInsert.upsertBatch_eq",
    "Sqddl.BatchInsert.upsertBatches_eq",
    "Sqddl.BatchInsert.keys_spec",
    "Sqddl.BatchInsert.upsert_text",
    "Sqddl.BatchInsert.updateInsert_text",
    "Sqddl.BatchInsert.upsertBatch_repeated_refuted"
   ],
   "note": "Holds when no key repeats within a batch; refuted otherwise."
  },
  {
   "property": "C47",
   "status": "partial",
   "theorems": [
    "Sqddl.DumpCsv.value_roundtrip_partial",
    "Sqddl.DumpCsv.default_roundtrip_partial",
    "Sqddl.DumpCsv.table_roundtrip_partial",
    "Sqddl.DumpCsv.sqlite_roundtrip_partial",
    "Sqddl.DumpCsv.sqlite_time_roundtrip",
    "Sqddl.DumpCsv.json_ints_roundtrip",
    "Sqddl.DumpCsv.json_strings_roundtrip",
    "Sqddl.Csv.read_write",
    "Sqddl.DumpCsv.crlf_refuted",
    "Sqddl.DumpCsv.nullstring_refuted",
    "Sqddl.DumpCsv.empty_bytes_refuted",
    "Sqddl.DumpCsv.fraction_refuted",
    "Sqddl.DumpCsv.numeric_refuted",
    "Sqddl.DumpCsv.numeric_rounded",
    "Sqddl.DumpCsv.no_pkey_refuted",
    "Sqddl.DumpCsv.json_null_refuted",
    "Sqddl.DumpCsv.json_empty_refuted",
    "Sqddl.DumpCsv.json_escape_refuted",
    "Sqddl.DumpCsv.blank_row_refuted",
    "Sqddl.DumpCsv.sqlite_boolean_refuted",
    "Sqddl.DumpCsv.sqlite_date_refuted",
    "Sqddl.DumpCsv.sqlite_uuid_refuted",
    "Sqddl.DumpCsv.mysql_time_refuted"
   ],
   "note": "The CSV writer and reader, the scan destinations, the fields and the parameters are modelled; the database is the function input (or store for SQLite) of the specification. The refutations list the values that do not come back."
  },
  {
   "property": "C48",
   "status": "partial",
   "theorems": [
    "Sqddl.Subset.subset_complete_partial",
    "Sqddl.Subset.subset_intact_partial",
    "Sqddl.Subset.subset_base",
    "Sqddl.Subset.subset_intact_refuted",
    "Sqddl.Subset.subset_self_reference_refuted",
    "Sqddl.Subset.extended_subset_intact_refuted",
    "Sqddl.Subset.subset_tables_refuted",
    "Sqddl.Subset.mem_tablesOf"
   ],
   "note": "Proved for treelike foreign keys (no way back to the base table; a table reached by two foreign keys refers to no others). Refuted already for acyclic foreign keys, for self-references, for extended subsets and for tables without primary key."
  },
  {
   "property": "C49",
   "status": "partial",
   "theorems": [
    "Sqddl.Subset.subset_terminates",
    "Sqddl.Subset.subset_no_panic",
    "Sqddl.Subset.subset_chains",
    "Sqddl.Subset.subset_outside_refuted",
    "Sqddl.Subset.subset_clash_refuted"
   ],
   "note": "Termination for all graphs; no crash if all referenced tables are known. Refuted: it crashes if a referenced table is excluded by the filter."
  },
  {
   "property": "C50",
   "status": "proved",
   "theorems": [
    "Sqddl.PqArray.parseArray_text",
    "Sqddl.PqArray.scanStrings_value",
    "Sqddl.PqArray.scanBools_value",
    "Sqddl.PqArray.scanInts_value",
    "Sqddl.PqArray.scanByteas_value",
    "Sqddl.PqArray.parseBytea_encode",
    "Sqddl.PqArray.parseArray_total",
    "Sqddl.PqArray.scanLinear_total"
   ],
   "note": ""
  },
  {
   "property": "C51",
   "status": "partial",
   "theorems": [
    "Sqddl.Load.load_in_order",
    "Sqddl.Load.load_complete",
    "Sqddl.Load.isTopCsv_iff",
    "Sqddl.Load.planZip_files",
    "Sqddl.Load.planTgz_files",
    "Sqddl.Load.planDir_files",
    "Sqddl.Load.load_dot_archive_refuted"
   ],
   "note": "Which files are found is proved for archives whose entry names have no . or .. parts; refuted for archives whose entries start with ./ (the SQL files are skipped)."
  },
  {
   "property": "C52",
   "status": "partial",
   "theorems": [
    "Sqddl.Session.during_restores",
    "Sqddl.Session.during_calls",
    "Sqddl.Session.duringTx_restores",
    "Sqddl.Session.duringTx_restores_other",
    "Sqddl.Session.int_settings_restored",
    "Sqddl.Session.mysql_csv_setting_restored",
    "Sqddl.Session.pg_timezone_restored",
    "Sqddl.Session.pg_lock_timeout_reads_iff",
    "Sqddl.Session.pg_lock_timeout_restored_partial",
    "Sqddl.Session.pg_lock_timeout_refuted"
   ],
   "note": "Refuted for lock_timeout of Postgres unless it is 0: SHOW gives a unit and the value is set again without quotes, so migrate fails at its end and the setting stays."
  },
  {
   "property": "C53",
   "status": "partial",
   "theorems": [
    "Sqddl.Structs.structs_types_partial",
    "Sqddl.Structs.structs_mysql_timestamp_refuted",
    "Sqddl.Structs.structs_sqlite_int_pkey_refuted"
   ],
   "note": "For databases within the limits of Fits. Refuted: TIMESTAMP columns of MySQL and SQLite become DATETIME, and INT PRIMARY KEY of SQLite becomes INTEGER PRIMARY KEY."
  },
  {
   "property": "C54",
   "status": "partial",
   "theorems": [
    "Sqddl.normalizeDSN_dialect",
    "Sqddl.standsFor_unique",
    "Sqddl.normalizeDSN_file_partial",
    "Sqddl.normalizeDSN_file_sqlite",
    "Sqddl.normalizeDSN_file_missing",
    "Sqddl.normalizeDSN_file_refuted",
    "Sqddl.normalizeDSN_default",
    "Sqddl.sqlite3_scheme_refuted"
   ],
   "note": "Refuted for files of fewer than 16 bytes and for sqlite3: with the SQLite driver."
  },
  {
   "property": "C55",
   "status": "partial",
   "theorems": [
    "Sqddl.Migrate.migrate_nothing_selected_refuted"
   ],
   "note": "Refuted."
  },
  {
   "property": "C56",
   "status": "partial",
   "theorems": [
    "Sqddl.BatchInsert.batchInsert_identity_left_on_refuted",
    "Sqddl.BatchInsert.batchInsert_identity_partial"
   ],
   "note": "Refuted: after an error the setting stays on. Holds when no call fails."
  },
  {
   "property": "C57",
   "status": "proved",
   "theorems": [
    "Sqddl.mem_walkDir",
    "Sqddl.walkDir_nodup",
    "Sqddl.walkDir_order"
   ],
   "note": ""
  },
  {
   "property": "C58",
   "status": "partial",
   "theorems": [
    "Sqddl.Migrate.migrate_interrupted_read_refuted",
    "Sqddl.Migrate.migrateSeen_all"
   ],
   "note": "Refuted."
  },
  {
   "property": "C59",
   "status": "partial",
   "theorems": [
    "Sqddl.normalizeFilename_with_dir",
    "Sqddl.normalizeFilename_with_dot",
    "Sqddl.normalizeFilename_plain_partial",
    "Sqddl.normalizeFilename_refuted"
   ],
   "note": "Refuted for names that start with the name of the directory or a dot."
  },
  {
   "property": "C60",
   "status": "partial",
   "theorems": [
    "Sqddl.normalizeColumnType_meaning_partial",
    "Sqddl.normalizeColumnType_distinguishes_partial",
    "Sqddl.normalizeColumnType_args_partial",
    "Sqddl.normType_same_partial",
    "Sqddl.normalizeColumnType_meaning_refuted"
   ],
   "note": "Refuted if something follows the arguments."
  },
  {
   "property": "C61",
   "status": "partial",
   "theorems": [
    "Sqddl.generateName_utf8_partial",
    "Sqddl.generateName_utf8_refuted"
   ],
   "note": "Refuted for names that are cut."
  },
  {
   "property": "C62",
   "status": "partial",
   "theorems": [
    "Sqddl.wrapBrackets_enclosed_partial",
    "Sqddl.wrapBrackets_refuted",
    "Sqddl.unwrapBrackets_partial",
    "Sqddl.unwrapBrackets_refuted"
   ],
   "note": "Refuted for expressions like (a)||(b)."
  },
  {
   "property": "C63",
   "status": "partial",
   "theorems": [
    "Sqddl.normalizeColumnDefault_distinguishes_partial",
    "Sqddl.normalizeColumnDefault_distinguishes_refuted"
   ],
   "note": "Refuted for Postgres defaults that contain two colons."
  },
  {
   "property": "C64",
   "status": "partial",
   "theorems": [
    "Sqddl.Subset.template_filled",
    "Sqddl.Subset.template_panic_refuted",
    "Sqddl.Subset.template_plain_panic"
   ],
   "note": "Filling in is proved for text whose opening braces outside of the placeholders are doubled; refuted: templates without {*} or without a table make it crash."
  },
  {
   "property": "C65",
   "status": "proved",
   "theorems": [
    "Sqddl.Subset.subset_minimal",
    "Sqddl.Subset.extended_subset_minimal"
   ],
   "note": ""
  },
  {
   "property": "C66",
   "status": "partial",
   "theorems": [
    "Sqddl.Sqlite.sqlite_reads_back",
    "Sqddl.Postgres.sqlSteps_read_back",
    "Sqddl.Sqlserver.sqlSteps_read_back",
    "Sqddl.Sqlserver.alterTableSteps_read_back",
    "Sqddl.Render.columnDef_reads_back",
    "Sqddl.Render.constraintDef_reads_back",
    "Sqddl.Render.indexDef_reads_back",
    "Sqddl.Render.createTable_reads_back",
    "Sqddl.Render.createIndex_reads_back",
    "Sqddl.Render.createSchema_reads_back",
    "Sqddl.Render.dropSchema_reads_back",
    "Sqddl.Render.dropTable_reads_back",
    "Sqddl.Render.mysql_alterTable_reads_back",
    "Sqddl.Render.mysql_dropFkey_reads_back",
    "Sqddl.Render.mysql_addFkey_reads_back",
    "Sqddl.Mysql.steps_read_back",
    "Sqddl.Render.Samples.enum_labels_refuted",
    "Sqddl.Render.Samples.bracketed_generated_refuted",
    "Sqddl.Render.Samples.mysql_generated_notnull_refuted",
    "Sqddl.Render.Samples.sqlite_virtual_refuted",
    "Sqddl.Render.Samples.match_full_refuted",
    "Sqddl.Render.Samples.not_valid_refuted",
    "Sqddl.Render.Samples.mysql_inline_hash_refuted",
    "Sqddl.Render.Samples.mysql_spatial_refuted"
   ],
   "note": "For columns, constraints and indexes that meet the stated conditions; most conditions are shown to be needed by a counterexample. For SQL Server also the block that looks up and drops a default, and CREATE SCHEMA inside of EXEC."
  },
  {
   "property": "C67",
   "status": "partial",
   "theorems": [
    "EngineSpec.plan_converges",
    "EngineSpec.plan_text",
    "EngineSpec.generate_migrate_converges_partial",
    "EngineSpec.automigrate_converges_partial",
    "EngineSpec.Shop.changed_fkey_refuted",
    "EngineSpec.Shop.changed_index_refuted",
    "EngineSpec.Shop.added_check_refuted",
    "EngineSpec.Shop.dropped_column_refuted",
    "EngineSpec.Shop.changed_column_refuted",
    "EngineSpec.Shop.undo_name_refuted",
    "PgSpec.pg_plan_converges_partial",
    "PgSpec.pg_plan_text",
    "PgSpec.pg_files_converge_partial",
    "PgSpec.pg_generate_migrate_converges_partial",
    "PgSpec.pg_automigrate_converges_partial",
    "PgSpec.Pets.pg_changed_fkey_refuted",
    "PgSpec.Pets.pg_changed_index_refuted",
    "PgSpec.Pets.pg_added_check_refuted",
    "PgSpec.Pets.pg_removed_check_refuted",
    "PgSpec.Pets.pg_dropped_column_refuted",
    "PgSpec.Pets.pg_deferrable_key_refuted",
    "MsSpec.ms_plan_converges_partial",
    "MsSpec.ms_plan_text",
    "MsSpec.ms_files_converge_partial",
    "MsSpec.ms_generate_migrate_converges_partial",
    "MsSpec.ms_automigrate_converges_partial",
    "MsSpec.Undo.ms_undo_schema_refuted",
    "MsSpec.Pets.ms_changed_fkey_refuted",
    "MsSpec.Pets.ms_changed_index_refuted",
    "MsSpec.Pets.ms_added_check_refuted",
    "MsSpec.Pets.ms_removed_check_refuted",
    "MsSpec.Pets.ms_dropped_column_refuted",
    "MsSpec.Pets.ms_not_null_lost_refuted",
    "MsSpec.Pets.ms_not_null_refuted",
    "MsSpec.Pets.ms_default_collation_refuted",
    "MsSpec.Pets.ms_identity_refuted"
   ],
   "note": "On abstract MySQL, Postgres and SQL Server servers without rows (SQLite: C71). For versions whose differences migrations take care of (Comparable, for Postgres and SQL Server also Passable, for SQL Server also Findable) and names that can be part of file names; refuted for changed foreign keys and indexes, added CHECK constraints, dropped columns, changed generated columns, names that end in .undo (MySQL; schemas of SQL Server), removed CHECK constraints and deferrable keys (Postgres), columns that are or become NOT NULL, get the default collation or become identity columns (SQL Server)."
  },
  {
   "property": "C68",
   "status": "partial",
   "theorems": [
    "Sqddl.DumpCsv.dump_has_returned_rows",
    "Sqddl.DumpCsv.dump_complete_refuted"
   ],
   "note": "Refuted: rows.Err is not checked, so a connection that breaks gives a shorter file and no error."
  },
  {
   "property": "C69",
   "status": "partial",
   "theorems": [
    "Sqddl.DumpCsv.csv_table_partial",
    "Sqddl.DumpCsv.csvFile_injective",
    "Sqddl.DumpCsv.csv_underscore_refuted",
    "Sqddl.DumpCsv.csv_number_refuted",
    "Sqddl.DumpCsv.csv_dot_refuted",
    "Sqddl.DumpCsv.csv_same_file_refuted"
   ],
   "note": "Refuted for names that begin with an underscore, or digits and an underscore, and for names with dots."
  },
  {
   "property": "C70",
   "status": "proved",
   "theorems": [
    "Sqddl.Sqlite.sqlite_rebuild_triggers"
   ],
   "note": ""
  },
  {
   "property": "C71",
   "status": "partial",
   "theorems": [
    "Sqddl.Sqlite.sqlite_migrates_partial",
    "Sqddl.Sqlite.sqlite_accepts_partial",
    "Sqddl.Sqlite.sqlite_converges_partial",
    "Sqddl.Sqlite.sqlite_grows_partial",
    "Sqddl.Sqlite.Samples.sqlite_changed_fkey_refuted",
    "Sqddl.Sqlite.Samples.sqlite_surplus_stays_refuted"
   ],
   "note": "On an abstract SQLite schema, for versions whose differences the generator takes care of (Comparable) and texts that can be read back. With -drop-objects every statement is accepted (conditions of SQLite that depend on rows and on expressions are left out; Passable, Ready and NamesApart say what is assumed about the old database); without it acceptance is assumed. Refuted: a foreign key changed under the same name, and a surplus column of a table that is otherwise the same (it stays even with -drop-objects)."
  },
  {
   "property": "C72",
   "status": "proved",
   "theorems": [
    "Sqddl.pg_add_warned",
    "Sqddl.pg_not_null_warned",
    "Sqddl.pg_not_null_only"
   ],
   "note": ""
  },
  {
   "property": "C73",
   "status": "partial",
   "theorems": [
    "Sqddl.Structs.structs_describe_partial",
    "Sqddl.Structs.structs_cross_schema_refuted",
    "Sqddl.Structs.structs_generated_refuted"
   ],
   "note": "For databases within the limits of Fits (names that are identifiers, keys with the names that sqddl generates, simple indexes and others). Refuted: foreign keys into another schema between columns of the same name, expressions of generated columns. The Go syntax around the tags is the subject of C84."
  },
  {
   "property": "C74",
   "status": "partial",
   "theorems": [
    "Sqddl.Structs.structs_no_migration_partial",
    "Sqddl.Structs.structs_no_migration_sqlite_partial",
    "Sqddl.Structs.structs_mysql_timestamp_refuted",
    "Sqddl.Structs.structs_sqlite_int_pkey_refuted",
    "Sqddl.Structs.structs_sqlite_text_pkey_refuted",
    "Sqddl.Structs.structs_pkey_name_refuted",
    "Sqddl.Structs.structs_empty_schema_refuted"
   ],
   "note": "All four dialects, within the limits of Fits; refuted outside of them."
  },
  {
   "property": "C75",
   "status": "partial",
   "theorems": [
    "Sqddl.Structs.files_order_refuted"
   ],
   "note": "Refuted: every file is checked on its own, so a foreign key to a table of a later file is an error."
  },
  {
   "property": "C76",
   "status": "partial",
   "theorems": [
    "LiteralSpec.sprint_literal_partial",
    "LiteralSpec.sprint_total",
    "LiteralSpec.sprint_one_line",
    "LiteralSpec.sprint_panic",
    "LiteralSpec.time_literal_exact",
    "LiteralSpec.sprint_fraction_refuted",
    "LiteralSpec.sprint_offset_refuted",
    "LiteralSpec.sprint_nan_refuted",
    "LiteralSpec.sprint_nil_bytes_refuted",
    "LiteralSpec.sprint_unsigned_refuted",
    "LiteralSpec.sprint_nil_valuer_refuted",
    "LiteralSpec.sprint_refuses_refuted",
    "LiteralSpec.sprintf_minus_refuted"
   ],
   "note": "For the values that ArgOk describes. Refuted for fractions of a second (MySQL, SQLite), zones with seconds (Postgres), NaN and infinities, nil slices, large unsigned numbers (SQLite), nil Valuers, pointers to pointers and defined types, and a negative number after a minus."
  },
  {
   "property": "C77",
   "status": "partial",
   "theorems": [
    "LiteralSpec.timestamp_roundtrip_partial",
    "LiteralSpec.timestamp_millis_partial",
    "LiteralSpec.timestamp_absent",
    "LiteralSpec.timestamp_text",
    "LiteralSpec.timestamp_fraction_refuted",
    "LiteralSpec.timestamp_future_refuted",
    "LiteralSpec.timestamp_millis_refuted"
   ],
   "note": "For SQLite, times to the second whose Unix time is at most 10^12; refuted beyond. How package time reads a format is a parameter."
  },
  {
   "property": "C78",
   "status": "partial",
   "theorems": [
    "SubsetQuerySpec.subset_keys_partial",
    "SubsetQuerySpec.subset_keys_comparable",
    "SubsetQuerySpec.subset_empty_refuted",
    "SubsetQuerySpec.subset_pair_refuted",
    "SubsetQuerySpec.subset_backslash_refuted",
    "SubsetQuerySpec.subset_fraction_refuted",
    "SubsetQuerySpec.subset_uuid_refuted",
    "SubsetQuerySpec.subset_raw_text_refuted",
    "SubsetQuerySpec.subset_sqlite_time_refuted",
    "SubsetQuerySpec.subset_numeric_refuted",
    "SubsetQuerySpec.subset_broken_refuted"
   ],
   "note": "The rows and literals after VALUES are read back. Refuted for an empty result, for a query that breaks off, and for the values and types listed."
  },
  {
   "property": "C79",
   "status": "partial",
   "theorems": [
    "Sqddl.Introspect.scanColumn_keeps",
    "Sqddl.Introspect.scanConstraint_keeps",
    "Sqddl.Introspect.scan_keeps",
    "Sqddl.Introspect.scanEnum_keeps",
    "Sqddl.Introspect.unixLines_lines",
    "Sqddl.Introspect.writeCatalog_holds_partial",
    "Sqddl.Introspect.writeCatalog_complete_partial",
    "Sqddl.Introspect.query_ok",
    "Sqddl.Introspect.shortForeignKey_refuted",
    "Sqddl.Introspect.shadowTable_refuted",
    "Sqddl.Introspect.emptyTable_refuted",
    "Sqddl.Introspect.sameRoutine_refuted",
    "Sqddl.Introspect.sameConstraint_refuted",
    "Sqddl.Introspect.triggers_refuted"
   ],
   "note": "For databases whose names identify their objects, whose constraints belong to reported tables and whose keys have their columns; an error of any query is an error. Refuted for SQLite foreign keys without columns, shadow tables, and objects that share a name. The SQL of the queries is not modelled."
  },
  {
   "property": "C80",
   "status": "partial",
   "theorems": [
    "Sqddl.Introspect.scanConstraint_columns_partial",
    "Sqddl.Introspect.sqlserverIndex_partial",
    "Sqddl.Introspect.postgresIndex_columns",
    "Sqddl.Introspect.mysqlIndex_partial",
    "Sqddl.Introspect.postgresView_partial",
    "Sqddl.Introspect.commaName_refuted",
    "Sqddl.Introspect.commaIndex_refuted",
    "Sqddl.Introspect.barName_refuted"
   ],
   "note": "For names without the separators of the lists; refuted for others, with a panic for an index of SQL Server."
  },
  {
   "property": "C81",
   "status": "partial",
   "theorems": [
    "Sqddl.Introspect.mklist_reads_partial",
    "Sqddl.Introspect.mklist_stays_inside",
    "Sqddl.Introspect.filterPair_refuted",
    "Sqddl.Introspect.filterBackslash_refuted",
    "Sqddl.Introspect.filterEmpty_refuted"
   ],
   "note": "No name leaves its literal except on MySQL. Refuted for adjacent quotes, for backslashes on MySQL and for the empty name."
  },
  {
   "property": "C82",
   "status": "partial",
   "theorems": [
    "Sqddl.Introspect.getVersionNums_partial",
    "Sqddl.Introspect.version_refuted"
   ],
   "note": "For the texts of SQLite, SQL Server, releases of Postgres, plain MySQL and MariaDB. Refuted for other texts behind the numbers."
  },
  {
   "property": "C83",
   "status": "partial",
   "theorems": [
    "Sqddl.Introspect.sizes_read",
    "Sqddl.Introspect.sqlserverSizes_read",
    "Sqddl.Introspect.sqliteType_keeps",
    "Sqddl.Introspect.postgresType_partial",
    "Sqddl.Introspect.sqlserverType_text",
    "Sqddl.Introspect.sqliteDefault_partial",
    "Sqddl.Introspect.mysqlDefault_partial",
    "Sqddl.Introspect.sqlserverDefault_partial",
    "Sqddl.Introspect.checkExpr_partial",
    "Sqddl.Introspect.arrayType_refuted",
    "Sqddl.Introspect.quotedType_refuted",
    "Sqddl.Introspect.ncharType_refuted",
    "Sqddl.Introspect.sqliteDefault_refuted",
    "Sqddl.Introspect.mysqlDefault_refuted",
    "Sqddl.Introspect.sqlserverDefault_refuted",
    "Sqddl.Introspect.checkSuffix_refuted"
   ],
   "note": "For Postgres types of a name and arguments, SQL Server types with a length, and the defaults and checks that the theorems describe; refuted outside of them."
  },
  {
   "property": "C84",
   "status": "partial",
   "theorems": [
    "Sqddl.Structs.tables_file_describes_partial",
    "Sqddl.Structs.tables_text_read"
   ],
   "note": "For databases within the limits of Fits (C73) and, if they become part of the names of structs, names of schemas that are identifiers. gofmt is trusted to change white space only; the reader of Go source is written for the declarations that occur."
  },
  {
   "property": "C85",
   "status": "partial",
   "theorems": [
    "Sqddl.Structs.run_fails_keeps",
    "Sqddl.Structs.run_introspect_keeps",
    "Sqddl.Structs.package_named",
    "Sqddl.Structs.run_prints",
    "Sqddl.Structs.run_writes_partial",
    "Sqddl.Structs.run_stale_refuted",
    "Sqddl.Structs.run_truncated_refuted"
   ],
   "note": "Holds for errors before the first write, and for runs that have something to write. Refuted: without tables the old file stays; a write that fails leaves a truncated file."
  },
  {
   "property": "C86",
   "status": "partial",
   "theorems": [
    "Sqddl.Structs.declared_once_partial",
    "Sqddl.Structs.declared_once_refuted"
   ],
   "note": "For names that need no quotation marks, and tables with different names or qualified names of schemas without underscore. Refuted for each of the other cases."
  },
  {
   "property": "C87",
   "status": "partial",
   "theorems": [
    "Sqddl.Structs.views_describe_partial",
    "Sqddl.Structs.views_describe_refuted"
   ],
   "note": "For columns whose names need no quotation marks; refuted for all other ones, since the fields of columns of views get no name tag."
  },
  {
   "property": "C88",
   "status": "partial",
   "theorems": [
    "Sqddl.Structs.view_file_skipped",
    "Sqddl.Structs.view_file_read",
    "Sqddl.Structs.view_file_refused_refuted"
   ],
   "note": "Holds if the name of every view has an underscore, a space or a digit. Refuted for all views whose names have letters only: generate reports an error."
  },
  {
   "property": "C89",
   "status": "partial",
   "theorems": [
    "Sqddl.LoadParallel.load_csv_atomic",
    "Sqddl.LoadParallel.load_csv_complete",
    "Sqddl.LoadParallel.load_zip_atomic_refuted",
    "Sqddl.LoadParallel.load_zip_pgx_atomic_refuted",
    "Sqddl.LoadParallel.load_zip_lost_refuted",
    "Sqddl.LoadParallel.load_zip_pq_refuted"
   ],
   "note": "Holds for directories, .tgz archives and SQLite. Refuted for .zip archives, whose goroutines begin their transactions on one connection."
  },
  {
   "property": "C90",
   "status": "partial",
   "theorems": [
    "Sqddl.LoadParallel.load_csv_setting",
    "Sqddl.LoadParallel.load_zip_setting_refuted"
   ],
   "note": "Holds for directories, .tgz archives and SQLite. Refuted for .zip archives: the load succeeds with timestamps read in the wrong time zone."
  },
  {
   "property": "C91",
   "status": "partial",
   "theorems": [
    "Sqddl.LoadParallel.load_csv_restores_partial",
    "Sqddl.LoadParallel.load_csv_restores_refuted"
   ],
   "note": "Holds for Postgres, and on MySQL if nothing fails. Refuted on MySQL: after an error of one file the connections of the others keep foreign_key_checks = 0."
  },
  {
   "property": "C92",
   "status": "partial",
   "theorems": [
    "Sqddl.DumpParallel.dump_dir_file",
    "Sqddl.DumpParallel.dump_dir_complete_partial",
    "Sqddl.DumpParallel.dump_broken_refuted",
    "Sqddl.DumpParallel.dump_same_file_refuted"
   ],
   "note": "Holds if no connection breaks and no two tables have the same file name. Refuted otherwise: rows.Err is not looked at, so a dump that was cut off is reported as complete."
  },
  {
   "property": "C93",
   "status": "partial",
   "theorems": [
    "Sqddl.DumpParallel.dump_snapshot_partial",
    "Sqddl.DumpParallel.dump_snapshot_refuted"
   ],
   "note": "Refuted: the queries are not in one transaction. Holds if no one else changes the database."
  },
  {
   "property": "C94",
   "status": "partial",
   "theorems": [
    "Sqddl.MigrateParallel.parallel_own_once",
    "Sqddl.MigrateParallel.read_after_record",
    "Sqddl.MigrateParallel.parallel_once_partial",
    "Sqddl.MigrateParallel.parallel_once_refuted"
   ],
   "note": "Refuted: nothing is locked between the read of the history and the run. Holds if no command reads the history while another one has work left; in every case no command runs a file that was recorded when it read."
  },
  {
   "property": "C95",
   "status": "partial",
   "theorems": [
    "DumpParts.pg_dump_load_partial",
    "DumpParts.ms_dump_load_partial",
    "DumpParts.mysql_dump_load_partial",
    "DumpSpec.Shop.pg_dump_cross_schema_refuted",
    "DumpSpec.Shop.pg_dump_line_break_refuted",
    "DumpSpec.Shop.pg_dump_not_valid_refuted"
   ],
   "note": "Holds for Postgres, MySQL and SQL Server without extensions, enums and domains (those of Postgres: C98), if no foreign key leads to a schema that is dumped later (unless its key is an early one), no name has a line break and every constraint is valid. Refuted without these: the foreign keys of a schema are written before the primary keys of the next; names are written into comments as they are; NOT VALID is not written. Triggers, views and routines are not dumped. SQLite: C101."
  },
  {
   "property": "C96",
   "status": "partial",
   "theorems": [
    "DumpArchive.dump_zip_load",
    "DumpArchive.dump_tgz_load",
    "DumpArchive.dump_dir_load",
    "DumpArchive.dump_slash_refuted"
   ],
   "note": "Holds if no name of a table or schema has a slash, and for directories if they were empty and the names of the CSV files are distinct. Refuted with a slash: load skips the file and reports success."
  },
  {
   "property": "C97",
   "status": "partial",
   "theorems": [
    "DumpSpec.tableQuery_partial",
    "DumpSpec.tableQueries_tables",
    "DumpSpec.dump_deterministic",
    "DumpSpec.dump_load_rows_partial",
    "DumpSpec.Orders.dump_query_generated_refuted"
   ],
   "note": "Holds for tables whose names can be quoted (C18), whose file names are read back (C69) and whose values survive (C47), in Postgres, MySQL and SQL Server. Refuted for a table with only generated columns: its query is no SELECT of columns."
  },
  {
   "property": "C98",
   "status": "partial",
   "theorems": [
    "PgTypes.pg_dump_load_types_partial",
    "PgTypes.pg_dump_domain_order_refuted",
    "PgTypes.pg_dump_domain_without_check_refuted",
    "PgTypes.pg_dump_enum_case_refuted",
    "PgTypes.pg_dump_domain_case_refuted",
    "PgTypes.pg_dump_enum_label_refuted"
   ],
   "note": "Holds if the types that a domain names come before it in the order of the dump (enums of the same or an earlier schema, domains of an earlier schema or with an earlier name), no label has two quotes in a row, and every domain check is a bracketed expression. Refuted without these: domains are written by name; a domain without checks is introspected with one empty check and dumped as CHECK without an expression; the type of a column that is an enum is turned into lower case; a domain is written unquoted in a column."
  },
  {
   "property": "C99",
   "status": "partial",
   "theorems": [
    "Sqddl.Source.schema_json_valid",
    "Sqddl.Source.schema_json_round_trip_partial",
    "Sqddl.Source.source_of_dump",
    "Sqddl.Source.generate_reads_dumps_partial",
    "Sqddl.Source.generate_between_dumps_partial",
    "Sqddl.Source.data_only_refused",
    "Sqddl.Source.json_not_utf8_refuted"
   ],
   "note": "Holds if all texts of the catalog are in UTF-8 (attributes are given in the order of their keys) and, for -dest, if the catalog of -dest has a current schema whenever that of -src has one. Refuted for other texts: two names that are not in UTF-8 can become the same name."
  },
  {
   "property": "C100",
   "status": "partial",
   "theorems": [
    "Sqddl.Source.several_sources_refuted",
    "Sqddl.Source.several_json_refuted"
   ],
   "note": "Refuted: every file is decoded onto the same catalog, so that the objects of a file take the places of those of the files before it; the number of schemas is that of the last file, tables of the first file are lost, and fields that are not written (because they are false or empty) keep the values of the object that was there before. One file is read as it is (C99), files of structs are C75."
  },
  {
   "property": "C101",
   "status": "partial",
   "theorems": [
    "LiteDump.sqlite_dump_load_partial",
    "LiteDump.sqlite_backup_partial",
    "LiteDump.sqlite_dump_carriage_return_refuted",
    "LiteDump.sqlite_dump_line_break_refuted"
   ],
   "note": "Holds if no name of a table has a line break, no definition has a carriage return before a line feed, and every definition is read as tokens with the semicolon that introspection appends as its only one (names in square brackets or backticks are not read as names). Refuted without the first two: names are written into comments as they are, and CR LF is replaced inside string literals too. Views and triggers are not dumped; the tables that a virtual table makes for itself are not part of the database."
  },
  {
   "property": "C102",
   "status": "partial",
   "theorems": [
    "SelectSpec.subset_query",
    "SelectSpec.subset_query_rows_partial",
    "SelectSpec.subset_request",
    "SelectSpec.subset_pkey_refuted",
    "SelectSpec.subset_result_refuted"
   ],
   "note": "The query is read and answered in full for tables whose names can be quoted (C18), are not those of the common table expressions (pkey_, query1_, ...) and that the database tells apart; it then answers the rows at the ends of the chains of joins (Dumped, C48). That these are exactly the rows needed holds for plain subset queries whose foreign keys have no cycles or diamonds (C48). Refuted for tables without schema named pkey_ or query1_."
  },
  {
   "property": "C103",
   "status": "partial",
   "theorems": [
    "Sqddl.BatchInsert.batchInsert_upserts_partial",
    "Sqddl.BatchInsert.batchInsert_appends_partial",
    "Sqddl.BatchInsert.batchInsert_alias_refuted",
    "Sqddl.BatchInsert.batchInsert_identity_only_refuted"
   ],
   "note": "Holds for SQLite, Postgres, MySQL and SQL Server if the names can be quoted (C18), the database takes two keys to be the same exactly if they are the same text and no part of them is NULL, in Postgres and SQL Server no key is given twice, the table of SQL Server is not named tmp_, and not only identity columns are outside of the key. Refuted without the last two: rows of a table tmp_ are silently left out; the UPDATE sets nothing and is no statement. The statements SET IDENTITY_INSERT and setval are not part of this (C45)."
  },
  {
   "property": "C104",
   "status": "partial",
   "theorems": [
    "HistorySql.select_rows_partial",
    "HistorySql.delete_rows_partial",
    "HistorySql.missing_rows_partial",
    "HistorySql.rename_rows_partial",
    "HistorySql.record_rows_partial",
    "HistorySql.create_table",
    "HistorySql.second_table_refuted",
    "HistorySql.collation_runs_again_refuted"
   ],
   "note": "Holds if the name of the table can be quoted (C18), the names are literals of the dialect (in MySQL a name with a backslash is read as another name or not at all; the theorems speak of the name that is read), the database takes two file names to be equal exactly if they are the same text, for IN () only in SQLite, and for recording in Postgres and SQL Server if no file is named twice. Refuted: with a collation that ignores case MySQL keeps one row for a.sql and A.sql and the second file runs on every migrate; in Postgres and SQL Server a second history table in a schema is refused because the name of its constraint is fixed. Lengths of names (VARCHAR(255)) and the query of historyTableExists are not part of this."
  },
  {
   "property": "C105",
   "status": "partial",
   "theorems": [
    "CatalogQuery.exists_answer",
    "CatalogQuery.ensure_iff",
    "CatalogQuery.ensure_partial",
    "CatalogQuery.other_object_refuted"
   ],
   "note": "The query answers exactly whether there is a table with the name in the current schema, and the cases of an error are characterised, for every database of the spec, if comparison is exact for the names of schemas and the words of the catalog. That no error occurs is proved if only a table that the query finds has the name and the name of the constraint is free; refuted otherwise: in SQLite a table created as History is not found as history and cannot be created, and in Postgres a partitioned table is not found. That the existing table has the right columns is not checked by the code and not claimed."
  },
  {
   "property": "C106",
   "status": "partial",
   "theorems": [
    "Sqddl.CommandLine.line_runs_partial",
    "Sqddl.CommandLine.runs_only",
    "Sqddl.CommandLine.status_zero_partial",
    "Sqddl.CommandLine.help_status",
    "Sqddl.CommandLine.unknown_subcommand_refuted",
    "Sqddl.CommandLine.late_dry_run_refuted",
    "Sqddl.CommandLine.dashes_refuted",
    "Sqddl.CommandLine.ls_documented_refuted",
    "Sqddl.CommandLine.dump_documented_refuted"
   ],
   "note": "Holds for every command line in which flags stand in front of the file names and no double dash stands in front of the subcommand. Refuted: a flag behind another argument is lost (sqddl wipe -db x y -dry-run wipes the database); a double dash in front of the subcommand takes the flags of the subcommand away; an unknown subcommand does nothing and exits with 0; the documented sqddl ls -db ... and sqddl dump -db ... -dir dump are refused. Splitting lists at commas is not part of this; panics of commands are neither."
  },
  {
   "property": "C107",
   "status": "partial",
   "theorems": [
    "Sqddl.main_opens",
    "Sqddl.postgres_url",
    "Sqddl.postgres_url_unread",
    "Sqddl.sqlite_url",
    "Sqddl.mysql_dsn_partial",
    "Sqddl.mysql_url_partial",
    "Sqddl.sqlserver_url_partial",
    "Sqddl.sqlserver_url_plain",
    "Sqddl.mysql_password_refuted",
    "Sqddl.mysql_dsn_refuted",
    "Sqddl.sqlserver_instance_refuted",
    "Sqddl.sqlserver_escape_refuted",
    "Sqddl.sqlite_foreign_keys_refuted"
   ],
   "note": "Holds in full for Postgres and SQLite. For MySQL it holds if no question mark is in the user, the password, the host or the database, no colon in the user name, no slash in the database and no @ in the host; for SQL Server if the path has no escapes. Refuted otherwise: a MySQL password with a question mark makes a text that the driver cannot read; the database of a SQL Server URL with a named instance is replaced by the name of the instance; an escaped database name stays in the path. A SQLite URL with an unreadable query is opened without foreign keys. url.Parse is a parameter."
  },
  {
   "property": "C108",
   "status": "partial",
   "theorems": [
    "Sqddl.pg_report_partial",
    "Sqddl.pg_report_nowhere_partial",
    "Sqddl.pg_line_le",
    "Sqddl.pg_panics_iff",
    "Sqddl.ms_report_partial",
    "Sqddl.lock_timeout_kept",
    "Sqddl.lock_timeout_codes",
    "Sqddl.pg_end_refuted",
    "Sqddl.pg_line_refuted",
    "Sqddl.pg_detail_refuted"
   ],
   "note": "The line is right if the script has only ASCII characters up to the error, the position is in the script and not at a line break; in any script it is never behind the error. Details, hints and messages are kept if they have no percent sign. Refuted: an error at the end of the script (syntax error at end of input) makes the annotation slice out of range and the program crash; after other than ASCII characters the line can be too small; a percent sign in the details is read as a verb. The recognition of lock timeouts is proved in full. fmt.Errorf is modelled for one argument without index and star."
  },
  {
   "property": "C109",
   "status": "partial",
   "theorems": [
    "Sqddl.Scripts.pg_tables_partial",
    "Sqddl.Scripts.pg_indexes_partial",
    "Sqddl.Scripts.mysql_tables",
    "Sqddl.Scripts.mysql_indexes_partial",
    "Sqddl.Scripts.mysql_routines_partial",
    "Sqddl.Scripts.sqlite_tables_partial",
    "Sqddl.Scripts.sqlite_columns_partial",
    "Sqddl.Scripts.sqlserver_tables_partial",
    "Sqddl.Scripts.sqlserver_routines_partial",
    "Sqddl.Scripts.pg_schema_refuted",
    "Sqddl.Scripts.pg_comment_refuted",
    "Sqddl.Scripts.pg_twice_refuted",
    "Sqddl.Scripts.pg_index_refuted",
    "Sqddl.Scripts.both_lists_refuted",
    "Sqddl.Scripts.mysql_routine_refuted",
    "Sqddl.Scripts.mysql_index_refuted",
    "Sqddl.Scripts.mysql_other_database_refuted",
    "Sqddl.Scripts.sqlite_name_refuted",
    "Sqddl.Scripts.sqlite_quoted_refuted",
    "Sqddl.Scripts.sqlserver_routine_refuted"
   ],
   "note": "Not both a list of names to include and one to exclude. The tables of MySQL are right in full. Postgres: if no schema of the user begins with pg and no column of a table has a comment; indexes if no constraint of another table has the name of the index. MySQL: indexes likewise, routines if each has a parameter. SQLite: if no name begins with sqlite without an underscore, columns if the name was not written in single quotes. SQL Server: if no name of the user begins with spt, msreplication or sp. Refuted otherwise: in LIKE patterns the underscore stands for any character, comments and constraints are joined by too few columns, routines without parameters are lost. MySQL reports the other databases of the server too. Missing: views, triggers, sequences, types, constraints."
  },
  {
   "property": "C110",
   "status": "partial",
   "theorems": [
    "Sqddl.Scripts.mysql_keys_partial",
    "Sqddl.Scripts.mysql_foreign_partial",
    "Sqddl.Scripts.mysql_checks_partial",
    "Sqddl.Scripts.sqlite_primary_partial",
    "Sqddl.Scripts.sqlite_unique_partial",
    "Sqddl.Scripts.sqlite_foreign_partial",
    "Sqddl.Scripts.pg_keys_partial",
    "Sqddl.Scripts.pg_foreign_partial",
    "Sqddl.Scripts.pg_checks_partial",
    "Sqddl.Scripts.pg_exclusions_partial",
    "Sqddl.Scripts.sqlserver_keys_partial",
    "Sqddl.Scripts.sqlserver_foreign_partial",
    "Sqddl.Scripts.sqlserver_checks_partial",
    "Sqddl.Scripts.mysql_same_name_refuted",
    "Sqddl.Scripts.mysql_check_name_refuted",
    "Sqddl.Scripts.sqlite_quoted_key_refuted",
    "Sqddl.Scripts.pg_include_refuted"
   ],
   "note": "Not both a list of names to include and one to exclude. MySQL: if the keys of a table have different names, checks if no other constraint of the database has the name of a check. SQLite, Postgres and SQL Server: for the tables that C109 covers; keys of SQL Server if the table is not partitioned by a column outside of the key. Refuted: the columns of a unique constraint and of a foreign key with the same name are reported together; a unique constraint with the name of a check of another table is reported as a check; the keys of a SQLite table whose name was written in single quotes are lost; the included columns of an exclusion constraint are lost. Definitions of checks and columns are those that Postgres writes. Missing: the limit of 1024 bytes of group_concat in MySQL."
  },
  {
   "property": "C111",
   "status": "partial",
   "theorems": [
    "Sqddl.Scripts.pg_index_columns_partial",
    "Sqddl.Scripts.mysql_index_columns_partial",
    "Sqddl.Scripts.sqlite_index_columns_partial",
    "Sqddl.Scripts.sqlserver_index_columns_partial",
    "Sqddl.Scripts.sqlserver_partition_refuted"
   ],
   "note": "Not both a list of names to include and one to exclude. Postgres: if no constraint has the name of another index and no schema of the user begins with pg; definitions of columns are those that Postgres writes. MySQL: if no constraint has the name of an index; MariaDB and old versions only without expressions. SQLite: for the tables that C109 covers; an expression is reported as an empty text. SQL Server: for the tables that C109 covers, if no index is partitioned by a column outside of its key; the included columns in some order. Refuted: such a partitioning column is reported as the first key column. Missing: the limit of 1024 bytes of group_concat in MySQL, how the joined text is taken apart again (C80)."
  },
  {
   "property": "C112",
   "status": "partial",
   "theorems": [
    "Sqddl.Scripts.pg_columns_partial",
    "Sqddl.Scripts.mysql_columns_partial",
    "Sqddl.Scripts.sqlserver_columns_partial",
    "Sqddl.Scripts.pg_domain_length_refuted",
    "Sqddl.Scripts.pg_negative_scale_refuted",
    "Sqddl.Scripts.mysql_on_update_refuted",
    "Sqddl.Scripts.mysql_invisible_refuted",
    "Sqddl.Scripts.mysql_empty_default_refuted",
    "Sqddl.Scripts.sqlserver_clr_refuted"
   ],
   "note": "Not both a list of names to include and one to exclude. Postgres: if domains have no modifier of their own, scales are not negative and no schema of the user begins with pg; virtual generated columns of Postgres 18 are left open. MySQL: if no column is invisible and ON UPDATE comes with an expression as default and without digits. SQL Server: if no column has a .NET type; an alias type is reported as its base type, and the collation of the server is left out even if the database has another one. In MySQL an empty default is not told from none. Refuted: the length of a domain is lost, negative scales become other numbers, ON UPDATE with digits and AUTO_INCREMENT of invisible columns are lost, a .NET type is replaced by the name of the table. SQLite columns are in C109 as far as they are modelled. The order of tables is not modelled."
  },
  {
   "property": "C113",
   "status": "partial",
   "theorems": [
    "Sqddl.Scripts.pg_enums_partial",
    "Sqddl.Scripts.pg_domains_partial",
    "Sqddl.Scripts.pg_views_partial",
    "Sqddl.Scripts.pg_triggers_partial",
    "Sqddl.Scripts.mysql_views",
    "Sqddl.Scripts.sqlserver_triggers_partial",
    "Sqddl.Scripts.pg_type_list_refuted",
    "Sqddl.Scripts.pg_object_comments_refuted",
    "Sqddl.Scripts.pg_domain_unchecked_refuted",
    "Sqddl.Scripts.pg_capital_view_refuted",
    "Sqddl.Scripts.pg_trigger_twice_refuted",
    "Sqddl.Scripts.pg_view_trigger_refuted",
    "Sqddl.Scripts.sqlserver_encrypted_refuted",
    "Sqddl.Scripts.sqlserver_both_lists_refuted"
   ],
   "note": "Not both a list of names to include and one to exclude. Postgres: if no schema of the user begins with pg, no list of enums or domains is given, enums, domains and views have no comments, domains have a check (others are found, but what is said of them is open), enums have a label, views have a column and names without capitals or quotes, and no other object with the number of a trigger has a comment. NOT NULL of domains as a constraint (Postgres 17) is not modelled. SQL Server: if no list of views is given and no trigger is encrypted. Refuted: lists of enums or domains are refused by the database, comments are lost, a domain without checks gets an empty one, a view with a capital is lost or gets the definition of another, a trigger is reported twice, triggers of views are lost with a list of tables, an encrypted trigger makes reading fail. Triggers of MySQL, views of SQL Server, and SQLite are not modelled; nor is the order of the objects."
  },
  {
   "property": "C114",
   "status": "partial",
   "theorems": [
    "Sqddl.Scripts.pg_routines_partial",
    "Sqddl.Scripts.pg_extensions",
    "Sqddl.Scripts.mysql_triggers",
    "Sqddl.Scripts.sqlite_triggers_partial",
    "Sqddl.Scripts.sqlite_views_partial",
    "Sqddl.Scripts.sqlserver_views_partial",
    "Sqddl.Scripts.pg_aggregate_refuted",
    "Sqddl.Scripts.pg_extension_number_refuted",
    "Sqddl.Scripts.pg_routine_twice_refuted",
    "Sqddl.Scripts.sqlite_view_trigger_refuted",
    "Sqddl.Scripts.sqlserver_encrypted_view_refuted"
   ],
   "note": "Not both a list of names to include and one to exclude. Postgres 11 and later: if no routine is an aggregate, no schema of the user begins with pg, and no other object with the number of a routine has a comment or belongs to an extension. SQLite: if no name begins with sqlite but not with sqlite_; the order of the columns of a view is the one in which pragma_table_xinfo gives them, which group_concat does not promise to keep. SQL Server: if no view is encrypted. Refuted: an aggregate makes reading fail, a function is lost or doubled if its number is used elsewhere, the trigger of a view is lost in SQLite, an encrypted view makes reading fail. The order of the objects is not modelled."
  },
  {
   "property": "C115",
   "status": "partial",
   "theorems": [
    "Sqddl.Scripts.mysql_stored_partial",
    "Sqddl.Scripts.sqlserver_stored_partial",
    "Sqddl.Scripts.mysql_function_refuted",
    "Sqddl.Scripts.mysql_same_routine_refuted",
    "Sqddl.Scripts.sqlserver_encrypted_routine_refuted"
   ],
   "note": "Not both a list of names to include and one to exclude. MySQL: if every routine that is asked for has a parameter and a visible definition and no procedure has the name of a function of its database. SQL Server: if no routine that is asked for is encrypted and the names that begin with sp are those of the server. Refuted: any function of MySQL without parameters makes reading fail, and so does any encrypted routine of SQL Server; a function and a procedure of MySQL with the same name get the parameters of both, and one of them is lost. Procedures of MySQL without parameters are lost (C109). The limit of 1024 bytes of group_concat and the order of the routines are not modelled."
  },
  {
   "property": "C116",
   "status": "partial",
   "theorems": [
    "Sqddl.Scripts.mysql_tables_again",
    "Sqddl.Scripts.sqlserver_tables_again",
    "Sqddl.Scripts.sqlite_tables_again",
    "Sqddl.Scripts.pg_tables_again_partial",
    "Sqddl.Scripts.mysql_triggers_again",
    "Sqddl.Scripts.sqlite_triggers_again",
    "Sqddl.Scripts.pg_extensions_again",
    "Sqddl.Scripts.pg_routines_again_partial",
    "Sqddl.Scripts.sqlite_views_again",
    "Sqddl.Scripts.sqlserver_routines_again",
    "Sqddl.Scripts.pg_triggers_again_partial",
    "Sqddl.Scripts.pg_overload_refuted",
    "Sqddl.Scripts.sqlite_foreign_order_refuted"
   ],
   "note": "If the database tells the names apart by which it sorts. Tables and triggers of Postgres: if each is reported once (C109, C113). Routines of Postgres: if no two that are reported have the same name. Refuted: functions of Postgres with one name, and foreign keys of SQLite from the same columns, may come in any order. The order of the columns within a table is in C112; the order of other constraints, of indexes, enums, domains, the other views, the triggers of SQL Server and the routines of MySQL is not covered."
  }
 ]
}