import Verif.Basic

/-! Keyword tables of /repo/ddl/sq.go, transcribed mechanically. -/

namespace Sqddl

/-- /repo/ddl/sq.go:105-132 `sqliteKeywords`. -/
def sqliteKeywords : List Str := [
  b!"abort", b!"action", b!"add", b!"after", b!"all", b!"alter", b!"always", b!"analyze",
  b!"and", b!"as", b!"asc", b!"attach", b!"autoincrement", b!"before", b!"begin", b!"between",
  b!"by", b!"cascade", b!"case", b!"cast", b!"check", b!"collate", b!"column", b!"commit",
  b!"conflict", b!"constraint", b!"create", b!"cross", b!"current", b!"current_date",
  b!"current_time", b!"current_timestamp", b!"database", b!"default", b!"deferrable",
  b!"deferred", b!"delete", b!"desc", b!"detach", b!"distinct", b!"do", b!"drop", b!"each",
  b!"else", b!"end", b!"escape", b!"except", b!"exclude", b!"exclusive", b!"exists", b!"explain",
  b!"fail", b!"filter", b!"first", b!"following", b!"for", b!"foreign", b!"from", b!"full",
  b!"generated", b!"glob", b!"group", b!"groups", b!"having", b!"if", b!"ignore", b!"immediate",
  b!"in", b!"index", b!"indexed", b!"initially", b!"inner", b!"insert", b!"instead",
  b!"intersect", b!"into", b!"is", b!"isnull", b!"join", b!"key", b!"last", b!"left", b!"like",
  b!"limit", b!"match", b!"materialized", b!"natural", b!"no", b!"not", b!"nothing", b!"notnull",
  b!"null", b!"nulls", b!"of", b!"offset", b!"on", b!"or", b!"order", b!"others", b!"outer",
  b!"over", b!"partition", b!"plan", b!"pragma", b!"preceding", b!"primary", b!"query",
  b!"raise", b!"range", b!"recursive", b!"references", b!"regexp", b!"reindex", b!"release",
  b!"rename", b!"replace", b!"restrict", b!"returning", b!"right", b!"rollback", b!"row",
  b!"rows", b!"savepoint", b!"select", b!"set", b!"table", b!"temp", b!"temporary", b!"then",
  b!"ties", b!"to", b!"transaction", b!"trigger", b!"unbounded", b!"union", b!"unique",
  b!"update", b!"using", b!"vacuum", b!"values", b!"view", b!"virtual", b!"when", b!"where",
  b!"window", b!"with", b!"without"]

/-- /repo/ddl/sq.go:136-156 `postgresKeywords`. -/
def postgresKeywords : List Str := [
  b!"all", b!"analyse", b!"analyze", b!"and", b!"any", b!"array", b!"as", b!"asc",
  b!"asymmetric", b!"authorization", b!"binary", b!"both", b!"case", b!"cast", b!"check",
  b!"collate", b!"collation", b!"column", b!"concurrently", b!"constraint", b!"create",
  b!"cross", b!"current_catalog", b!"current_date", b!"current_role", b!"current_schema",
  b!"current_time", b!"current_timestamp", b!"current_user", b!"default", b!"deferrable",
  b!"desc", b!"distinct", b!"do", b!"else", b!"end", b!"except", b!"false", b!"fetch", b!"for",
  b!"foreign", b!"freeze", b!"from", b!"full", b!"grant", b!"group", b!"having", b!"ilike",
  b!"in", b!"initially", b!"inner", b!"intersect", b!"into", b!"is", b!"isnull", b!"join",
  b!"lateral", b!"leading", b!"left", b!"like", b!"limit", b!"localtime", b!"localtimestamp",
  b!"natural", b!"not", b!"notnull", b!"null", b!"offset", b!"on", b!"only", b!"or", b!"order",
  b!"outer", b!"overlaps", b!"placing", b!"primary", b!"references", b!"returning", b!"right",
  b!"select", b!"session_user", b!"similar", b!"some", b!"symmetric", b!"table", b!"tablesample",
  b!"then", b!"to", b!"trailing", b!"true", b!"union", b!"unique", b!"user", b!"using",
  b!"variadic", b!"verbose", b!"when", b!"where", b!"window", b!"with"]

/-- /repo/ddl/sq.go:160-211 `mysqlKeywords`. -/
def mysqlKeywords : List Str := [
  b!"accessible", b!"add", b!"all", b!"alter", b!"analyze", b!"and", b!"as", b!"asc",
  b!"asensitive", b!"before", b!"between", b!"bigint", b!"binary", b!"blob", b!"both", b!"by",
  b!"call", b!"cascade", b!"case", b!"change", b!"char", b!"character", b!"check", b!"collate",
  b!"column", b!"condition", b!"constraint", b!"continue", b!"convert", b!"create", b!"cross",
  b!"cube", b!"cume_dist", b!"current_date", b!"current_time", b!"current_timestamp",
  b!"current_user", b!"cursor", b!"database", b!"databases", b!"day_hour", b!"day_microsecond",
  b!"day_minute", b!"day_second", b!"dec", b!"decimal", b!"declare", b!"default", b!"delayed",
  b!"delete", b!"dense_rank", b!"desc", b!"describe", b!"deterministic", b!"distinct",
  b!"distinctrow", b!"div", b!"double", b!"drop", b!"dual", b!"each", b!"else", b!"elseif",
  b!"empty", b!"enclosed", b!"escaped", b!"except", b!"exists", b!"exit", b!"explain", b!"false",
  b!"fetch", b!"first_value", b!"float", b!"float4", b!"float8", b!"for", b!"force", b!"foreign",
  b!"from", b!"fulltext", b!"function", b!"generated", b!"get", b!"grant", b!"group",
  b!"grouping", b!"groups", b!"having", b!"high_priority", b!"hour_microsecond", b!"hour_minute",
  b!"hour_second", b!"if", b!"ignore", b!"in", b!"index", b!"infile", b!"inner", b!"inout",
  b!"insensitive", b!"insert", b!"int", b!"int1", b!"int2", b!"int3", b!"int4", b!"int8",
  b!"integer", b!"intersect", b!"interval", b!"into", b!"io_after_gtids", b!"io_before_gtids",
  b!"is", b!"iterate", b!"join", b!"json_table", b!"key", b!"keys", b!"kill", b!"lag",
  b!"last_value", b!"lateral", b!"lead", b!"leading", b!"leave", b!"left", b!"like", b!"limit",
  b!"linear", b!"lines", b!"load", b!"localtime", b!"localtimestamp", b!"lock", b!"long",
  b!"longblob", b!"longtext", b!"loop", b!"low_priority", b!"master_bind",
  b!"master_ssl_verify_server_cert", b!"match", b!"maxvalue", b!"mediumblob", b!"mediumint",
  b!"mediumtext", b!"middleint", b!"minute_microsecond", b!"minute_second", b!"mod",
  b!"modifies", b!"natural", b!"not", b!"no_write_to_binlog", b!"nth_value", b!"ntile", b!"null",
  b!"numeric", b!"of", b!"on", b!"optimize", b!"optimizer_costs", b!"option", b!"optionally",
  b!"or", b!"order", b!"out", b!"outer", b!"outfile", b!"over", b!"partition", b!"percent_rank",
  b!"precision", b!"primary", b!"procedure", b!"purge", b!"range", b!"rank", b!"read", b!"reads",
  b!"read_write", b!"real", b!"recursive", b!"references", b!"regexp", b!"release", b!"rename",
  b!"repeat", b!"replace", b!"require", b!"resignal", b!"restrict", b!"return", b!"revoke",
  b!"right", b!"rlike", b!"row", b!"rows", b!"row_number", b!"schema", b!"schemas",
  b!"second_microsecond", b!"select", b!"sensitive", b!"separator", b!"set", b!"show",
  b!"signal", b!"smallint", b!"spatial", b!"specific", b!"sql", b!"sqlexception", b!"sqlstate",
  b!"sqlwarning", b!"sql_big_result", b!"sql_calc_found_rows", b!"sql_small_result", b!"ssl",
  b!"starting", b!"stored", b!"straight_join", b!"system", b!"table", b!"terminated", b!"then",
  b!"tinyblob", b!"tinyint", b!"tinytext", b!"to", b!"trailing", b!"trigger", b!"true", b!"undo",
  b!"union", b!"unique", b!"unlock", b!"unsigned", b!"update", b!"usage", b!"use", b!"using",
  b!"utc_date", b!"utc_time", b!"utc_timestamp", b!"values", b!"varbinary", b!"varchar",
  b!"varcharacter", b!"varying", b!"virtual", b!"when", b!"where", b!"while", b!"window",
  b!"with", b!"write", b!"xor", b!"year_month", b!"zerofill"]

/-- /repo/ddl/sq.go:215-251 `sqlserverKeywords`. -/
def sqlserverKeywords : List Str := [
  b!"add", b!"external", b!"procedure", b!"all", b!"fetch", b!"public", b!"alter", b!"file",
  b!"raiserror", b!"and", b!"fillfactor", b!"read", b!"any", b!"for", b!"readtext", b!"as",
  b!"foreign", b!"reconfigure", b!"asc", b!"freetext", b!"references", b!"authorization",
  b!"freetexttable", b!"replication", b!"backup", b!"from", b!"restore", b!"begin", b!"full",
  b!"restrict", b!"between", b!"function", b!"return", b!"break", b!"goto", b!"revert",
  b!"browse", b!"grant", b!"revoke", b!"bulk", b!"group", b!"right", b!"by", b!"having",
  b!"rollback", b!"cascade", b!"holdlock", b!"rowcount", b!"case", b!"identity", b!"rowguidcol",
  b!"check", b!"identity_insert", b!"rule", b!"checkpoint", b!"identitycol", b!"save", b!"close",
  b!"if", b!"schema", b!"clustered", b!"in", b!"securityaudit", b!"coalesce", b!"index",
  b!"select", b!"collate", b!"inner", b!"semantickeyphrasetable", b!"column", b!"insert",
  b!"semanticsimilaritydetailstable", b!"commit", b!"intersect", b!"semanticsimilaritytable",
  b!"compute", b!"into", b!"session_user", b!"constraint", b!"is", b!"set", b!"contains",
  b!"join", b!"setuser", b!"containstable", b!"key", b!"shutdown", b!"continue", b!"kill",
  b!"some", b!"convert", b!"left", b!"statistics", b!"create", b!"like", b!"system_user",
  b!"cross", b!"lineno", b!"table", b!"current", b!"load", b!"tablesample", b!"current_date",
  b!"merge", b!"textsize", b!"current_time", b!"national", b!"then", b!"current_timestamp",
  b!"nocheck", b!"to", b!"current_user", b!"nonclustered", b!"top", b!"cursor", b!"not",
  b!"tran", b!"database", b!"null", b!"transaction", b!"dbcc", b!"nullif", b!"trigger",
  b!"deallocate", b!"of", b!"truncate", b!"declare", b!"off", b!"try_convert", b!"default",
  b!"offsets", b!"tsequal", b!"delete", b!"on", b!"union", b!"deny", b!"open", b!"unique",
  b!"desc", b!"opendatasource", b!"unpivot", b!"disk", b!"openquery", b!"update", b!"distinct",
  b!"openrowset", b!"updatetext", b!"distributed", b!"openxml", b!"use", b!"double", b!"option",
  b!"user", b!"drop", b!"or", b!"values", b!"dump", b!"order", b!"varying", b!"else", b!"outer",
  b!"view", b!"end", b!"over", b!"waitfor", b!"errlvl", b!"percent", b!"when", b!"escape",
  b!"pivot", b!"where", b!"except", b!"plan", b!"while", b!"exec", b!"precision", b!"with",
  b!"execute", b!"primary", b!"within group", b!"exists", b!"print", b!"writetext", b!"exit",
  b!"proc"]

end Sqddl
