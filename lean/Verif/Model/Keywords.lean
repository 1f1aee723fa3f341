import Verif.Base.WordTree
/-
The keyword table of `/repo/sqlparser/token.go`, transcribed entry by entry.
-/
namespace Sqldef

/-- `keywords`, /repo/sqlparser/token.go:94-455: the words and the names of their token codes. -/
def keywordTable : List (String × String) :=
  [("accessible", "UNUSED"), ("action", "ACTION"), ("add", "ADD"), ("after", "AFTER"),
   ("against", "AGAINST"), ("all", "ALL"), ("alter", "ALTER"), ("always", "ALWAYS"),
   ("analyze", "ANALYZE"), ("and", "AND"), ("array", "ARRAY"), ("as", "AS"), ("asc", "ASC"),
   ("asensitive", "UNUSED"), ("auto_increment", "AUTO_INCREMENT"), ("autoincrement", "AUTOINCREMENT"),
   ("before", "BEFORE"), ("begin", "BEGIN"), ("between", "BETWEEN"), ("bigint", "BIGINT"),
   ("bigserial", "BIGSERIAL"), ("binary", "BINARY"), ("_binary", "UNDERSCORE_BINARY"), ("bit", "BIT"),
   ("blob", "BLOB"), ("bool", "BOOL"), ("boolean", "BOOLEAN"), ("both", "UNUSED"), ("bpchar", "BPCHAR"),
   ("by", "BY"), ("cache", "CACHE"), ("call", "UNUSED"), ("cascade", "CASCADE"), ("case", "CASE"),
   ("cast", "CAST"), ("change", "UNUSED"), ("char", "CHAR"), ("character", "CHARACTER"),
   ("charset", "CHARSET"), ("check", "CHECK"), ("citext", "CITEXT"), ("clustered", "CLUSTERED"),
   ("nonclustered", "NONCLUSTERED"), ("collate", "COLLATE"), ("column", "COLUMN"),
   ("comment", "COMMENT_KEYWORD"), ("committed", "COMMITTED"), ("commit", "COMMIT"),
   ("condition", "UNUSED"), ("constraint", "CONSTRAINT"), ("continue", "UNUSED"), ("convert", "CONVERT"),
   ("substr", "SUBSTR"), ("substring", "SUBSTRING"), ("create", "CREATE"), ("cross", "CROSS"),
   ("current_date", "CURRENT_DATE"), ("current_time", "CURRENT_TIME"),
   ("current_timestamp", "CURRENT_TIMESTAMP"), ("current_user", "CURRENT_USER"), ("cursor", "UNUSED"),
   ("cycle", "CYCLE"), ("database", "DATABASE"), ("databases", "DATABASES"), ("day_hour", "UNUSED"),
   ("day_microsecond", "UNUSED"), ("day_minute", "UNUSED"), ("day_second", "UNUSED"), ("date", "DATE"),
   ("datetime", "DATETIME"), ("datetime2", "DATETIME2"), ("datetimeoffset", "DATETIMEOFFSET"),
   ("dec", "UNUSED"), ("decimal", "DECIMAL"), ("declare", "UNUSED"), ("default", "DEFAULT"),
   ("delayed", "UNUSED"), ("delete", "DELETE"), ("desc", "DESC"), ("describe", "DESCRIBE"),
   ("deterministic", "UNUSED"), ("distinct", "DISTINCT"), ("distinctrow", "UNUSED"), ("div", "DIV"),
   ("double", "DOUBLE"), ("drop", "DROP"), ("duplicate", "DUPLICATE"), ("each", "EACH"), ("else", "ELSE"),
   ("elseif", "UNUSED"), ("enclosed", "UNUSED"), ("end", "END"), ("enum", "ENUM"), ("escape", "ESCAPE"),
   ("escaped", "UNUSED"), ("exists", "EXISTS"), ("exit", "UNUSED"), ("explain", "EXPLAIN"),
   ("expansion", "EXPANSION"), ("extended", "EXTENDED"), ("false", "FALSE"), ("fetch", "UNUSED"),
   ("float", "FLOAT_TYPE"), ("float4", "UNUSED"), ("float8", "UNUSED"), ("for", "FOR"), ("force", "FORCE"),
   ("foreign", "FOREIGN"), ("from", "FROM"), ("full", "FULL"), ("fulltext", "FULLTEXT"),
   ("generated", "GENERATED"), ("geometry", "GEOMETRY"), ("geometrycollection", "GEOMETRYCOLLECTION"),
   ("get", "UNUSED"), ("getdate", "GETDATE"), ("global", "GLOBAL"), ("grant", "UNUSED"),
   ("group", "GROUP"), ("group_concat", "GROUP_CONCAT"), ("having", "HAVING"), ("high_priority", "UNUSED"),
   ("hour_microsecond", "UNUSED"), ("hour_minute", "UNUSED"), ("hour_second", "UNUSED"),
   ("identity", "IDENTITY"), ("if", "IF"), ("ignore", "IGNORE"), ("in", "IN"), ("include", "INCLUDE"),
   ("increment", "INCREMENT"), ("index", "INDEX"), ("infile", "UNUSED"), ("inout", "UNUSED"),
   ("inner", "INNER"), ("insensitive", "UNUSED"), ("insert", "INSERT"), ("int", "INT"), ("int1", "UNUSED"),
   ("int2", "UNUSED"), ("int3", "UNUSED"), ("int4", "UNUSED"), ("int8", "UNUSED"), ("integer", "INTEGER"),
   ("interval", "INTERVAL"), ("into", "INTO"), ("io_after_gtids", "UNUSED"), ("is", "IS"),
   ("isolation", "ISOLATION"), ("inherit", "INHERIT"), ("iterate", "UNUSED"), ("join", "JOIN"),
   ("json", "JSON"), ("jsonb", "JSONB"), ("key", "KEY"), ("keys", "KEYS"),
   ("key_block_size", "KEY_BLOCK_SIZE"), ("kill", "UNUSED"), ("language", "LANGUAGE"),
   ("last_insert_id", "LAST_INSERT_ID"), ("leading", "UNUSED"), ("leave", "UNUSED"), ("left", "LEFT"),
   ("less", "LESS"), ("level", "LEVEL"), ("like", "LIKE"), ("limit", "LIMIT"), ("linear", "UNUSED"),
   ("lines", "UNUSED"), ("linestring", "LINESTRING"), ("load", "UNUSED"), ("localtime", "LOCALTIME"),
   ("localtimestamp", "LOCALTIMESTAMP"), ("lock", "LOCK"), ("long", "UNUSED"), ("longblob", "LONGBLOB"),
   ("longtext", "LONGTEXT"), ("loop", "UNUSED"), ("low_priority", "UNUSED"), ("master_bind", "UNUSED"),
   ("match", "MATCH"), ("maxvalue", "MAXVALUE"), ("mediumblob", "MEDIUMBLOB"), ("mediumint", "MEDIUMINT"),
   ("mediumtext", "MEDIUMTEXT"), ("middleint", "UNUSED"), ("minute_microsecond", "UNUSED"),
   ("minute_second", "UNUSED"), ("minvalue", "MINVALUE"), ("mod", "MOD"), ("mode", "MODE"),
   ("modifies", "UNUSED"), ("money", "MONEY"), ("multilinestring", "MULTILINESTRING"),
   ("multipoint", "MULTIPOINT"), ("multipolygon", "MULTIPOLYGON"), ("names", "NAMES"),
   ("natural", "NATURAL"), ("nchar", "NCHAR"), ("next", "NEXT"), ("no", "NO"), ("none", "NONE"),
   ("not", "NOT"), ("now", "NOW"), ("no_write_to_binlog", "UNUSED"), ("ntext", "NTEXT"), ("null", "NULL"),
   ("numeric", "NUMERIC"), ("nvarchar", "NVARCHAR"), ("offset", "OFFSET"), ("on", "ON"), ("only", "ONLY"),
   ("optimize", "OPTIMIZE"), ("optimizer_costs", "UNUSED"), ("option", "UNUSED"), ("optionally", "UNUSED"),
   ("or", "OR"), ("order", "ORDER"), ("out", "UNUSED"), ("outer", "OUTER"), ("outfile", "UNUSED"),
   ("owned", "OWNED"), ("parser", "PARSER"), ("partition", "PARTITION"), ("permissive", "PERMISSIVE"),
   ("point", "POINT"), ("policy", "POLICY"), ("polygon", "POLYGON"), ("precision", "PRECISION"),
   ("primary", "PRIMARY"), ("processlist", "PROCESSLIST"), ("procedure", "PROCEDURE"), ("query", "QUERY"),
   ("restrictive", "RESTRICTIVE"), ("range", "UNUSED"), ("read", "READ"), ("reads", "UNUSED"),
   ("read_write", "UNUSED"), ("real", "REAL"), ("references", "REFERENCES"), ("regexp", "REGEXP"),
   ("release", "UNUSED"), ("rename", "RENAME"), ("reorganize", "REORGANIZE"), ("repair", "REPAIR"),
   ("repeat", "UNUSED"), ("repeatable", "REPEATABLE"), ("replace", "REPLACE"),
   ("replication", "REPLICATION"), ("require", "UNUSED"), ("resignal", "UNUSED"), ("restrict", "RESTRICT"),
   ("return", "UNUSED"), ("revoke", "UNUSED"), ("right", "RIGHT"), ("rlike", "REGEXP"),
   ("rollback", "ROLLBACK"), ("row", "ROW"), ("schema", "SCHEMA"), ("schemas", "UNUSED"),
   ("second_microsecond", "UNUSED"), ("select", "SELECT"), ("sensitive", "UNUSED"),
   ("separator", "SEPARATOR"), ("sequence", "UNUSED"), ("serial", "SERIAL"),
   ("serializable", "SERIALIZABLE"), ("session", "SESSION"), ("set", "SET"), ("share", "SHARE"),
   ("show", "SHOW"), ("signal", "UNUSED"), ("signed", "SIGNED"), ("smalldatetime", "SMALLDATETIME"),
   ("smallint", "SMALLINT"), ("smallmoney", "SMALLMONEY"), ("smallserial", "SMALLSERIAL"),
   ("spatial", "SPATIAL"), ("specific", "UNUSED"), ("sql", "UNUSED"), ("sqlexception", "UNUSED"),
   ("sqlstate", "UNUSED"), ("sqlwarning", "UNUSED"), ("sql_big_result", "UNUSED"),
   ("sql_cache", "SQL_CACHE"), ("sql_calc_found_rows", "UNUSED"), ("sql_no_cache", "SQL_NO_CACHE"),
   ("sql_small_result", "UNUSED"), ("ssl", "UNUSED"), ("start", "START"), ("starting", "UNUSED"),
   ("status", "STATUS"), ("stored", "UNUSED"), ("straight_join", "STRAIGHT_JOIN"), ("stream", "STREAM"),
   ("table", "TABLE"), ("tables", "TABLES"), ("terminated", "UNUSED"), ("text", "TEXT"), ("than", "THAN"),
   ("then", "THEN"), ("time", "TIME"), ("timestamp", "TIMESTAMP"), ("tinyblob", "TINYBLOB"),
   ("tinyint", "TINYINT"), ("tinytext", "TINYTEXT"), ("to", "TO"), ("trailing", "UNUSED"),
   ("transaction", "TRANSACTION"), ("trigger", "TRIGGER"), ("true", "TRUE"), ("truncate", "TRUNCATE"),
   ("uncommitted", "UNCOMMITTED"), ("undo", "UNUSED"), ("union", "UNION"), ("unique", "UNIQUE"),
   ("unlock", "UNUSED"), ("unsigned", "UNSIGNED"), ("update", "UPDATE"), ("usage", "UNUSED"),
   ("use", "USE"), ("using", "USING"), ("utc_date", "UTC_DATE"), ("utc_time", "UTC_TIME"),
   ("utc_timestamp", "UTC_TIMESTAMP"), ("uuid", "UUID"), ("values", "VALUES"), ("variables", "VARIABLES"),
   ("varbinary", "VARBINARY"), ("varchar", "VARCHAR"), ("varcharacter", "UNUSED"), ("varying", "VARYING"),
   ("virtual", "UNUSED"), ("vindex", "VINDEX"), ("vindexes", "VINDEXES"), ("view", "VIEW"),
   ("vitess_keyspaces", "VITESS_KEYSPACES"), ("vitess_shards", "VITESS_SHARDS"),
   ("vitess_tablets", "VITESS_TABLETS"), ("vschema_tables", "VSCHEMA_TABLES"), ("when", "WHEN"),
   ("where", "WHERE"), ("while", "UNUSED"), ("with", "WITH"), ("without", "WITHOUT"), ("write", "WRITE"),
   ("xor", "UNUSED"), ("year", "YEAR"), ("year_month", "UNUSED"), ("zerofill", "ZEROFILL"),
   ("zone", "ZONE"), ("::", "TYPECAST"), ("allow_page_locks", "ALLOW_PAGE_LOCKS"),
   ("allow_row_locks", "ALLOW_ROW_LOCKS"), ("fillfactor", "FILLFACTOR"),
   ("ignore_dup_key", "IGNORE_DUP_KEY"), ("off", "OFF"), ("pad_index", "PAD_INDEX"),
   ("statistics_incremental", "STATISTICS_INCREMENTAL"),
   ("statistics_norecompute", "STATISTICS_NORECOMPUTE")]

/-- The same table with the words as lists of characters (`keywordWords_eq`), /repo/sqlparser/token.go:94-455. -/
def keywordWords : List (Str × Str) :=
  [(['a','c','c','e','s','s','i','b','l','e'], ['U','N','U','S','E','D']),
   (['a','c','t','i','o','n'], ['A','C','T','I','O','N']), (['a','d','d'], ['A','D','D']),
   (['a','f','t','e','r'], ['A','F','T','E','R']),
   (['a','g','a','i','n','s','t'], ['A','G','A','I','N','S','T']), (['a','l','l'], ['A','L','L']),
   (['a','l','t','e','r'], ['A','L','T','E','R']), (['a','l','w','a','y','s'], ['A','L','W','A','Y','S']),
   (['a','n','a','l','y','z','e'], ['A','N','A','L','Y','Z','E']), (['a','n','d'], ['A','N','D']),
   (['a','r','r','a','y'], ['A','R','R','A','Y']), (['a','s'], ['A','S']), (['a','s','c'], ['A','S','C']),
   (['a','s','e','n','s','i','t','i','v','e'], ['U','N','U','S','E','D']),
   (['a','u','t','o','_','i','n','c','r','e','m','e','n','t'], ['A','U','T','O','_','I','N','C','R','E','M','E','N','T']),
   (['a','u','t','o','i','n','c','r','e','m','e','n','t'], ['A','U','T','O','I','N','C','R','E','M','E','N','T']),
   (['b','e','f','o','r','e'], ['B','E','F','O','R','E']), (['b','e','g','i','n'], ['B','E','G','I','N']),
   (['b','e','t','w','e','e','n'], ['B','E','T','W','E','E','N']),
   (['b','i','g','i','n','t'], ['B','I','G','I','N','T']),
   (['b','i','g','s','e','r','i','a','l'], ['B','I','G','S','E','R','I','A','L']),
   (['b','i','n','a','r','y'], ['B','I','N','A','R','Y']),
   (['_','b','i','n','a','r','y'], ['U','N','D','E','R','S','C','O','R','E','_','B','I','N','A','R','Y']),
   (['b','i','t'], ['B','I','T']), (['b','l','o','b'], ['B','L','O','B']),
   (['b','o','o','l'], ['B','O','O','L']), (['b','o','o','l','e','a','n'], ['B','O','O','L','E','A','N']),
   (['b','o','t','h'], ['U','N','U','S','E','D']), (['b','p','c','h','a','r'], ['B','P','C','H','A','R']),
   (['b','y'], ['B','Y']), (['c','a','c','h','e'], ['C','A','C','H','E']),
   (['c','a','l','l'], ['U','N','U','S','E','D']),
   (['c','a','s','c','a','d','e'], ['C','A','S','C','A','D','E']), (['c','a','s','e'], ['C','A','S','E']),
   (['c','a','s','t'], ['C','A','S','T']), (['c','h','a','n','g','e'], ['U','N','U','S','E','D']),
   (['c','h','a','r'], ['C','H','A','R']),
   (['c','h','a','r','a','c','t','e','r'], ['C','H','A','R','A','C','T','E','R']),
   (['c','h','a','r','s','e','t'], ['C','H','A','R','S','E','T']),
   (['c','h','e','c','k'], ['C','H','E','C','K']), (['c','i','t','e','x','t'], ['C','I','T','E','X','T']),
   (['c','l','u','s','t','e','r','e','d'], ['C','L','U','S','T','E','R','E','D']),
   (['n','o','n','c','l','u','s','t','e','r','e','d'], ['N','O','N','C','L','U','S','T','E','R','E','D']),
   (['c','o','l','l','a','t','e'], ['C','O','L','L','A','T','E']),
   (['c','o','l','u','m','n'], ['C','O','L','U','M','N']),
   (['c','o','m','m','e','n','t'], ['C','O','M','M','E','N','T','_','K','E','Y','W','O','R','D']),
   (['c','o','m','m','i','t','t','e','d'], ['C','O','M','M','I','T','T','E','D']),
   (['c','o','m','m','i','t'], ['C','O','M','M','I','T']),
   (['c','o','n','d','i','t','i','o','n'], ['U','N','U','S','E','D']),
   (['c','o','n','s','t','r','a','i','n','t'], ['C','O','N','S','T','R','A','I','N','T']),
   (['c','o','n','t','i','n','u','e'], ['U','N','U','S','E','D']),
   (['c','o','n','v','e','r','t'], ['C','O','N','V','E','R','T']),
   (['s','u','b','s','t','r'], ['S','U','B','S','T','R']),
   (['s','u','b','s','t','r','i','n','g'], ['S','U','B','S','T','R','I','N','G']),
   (['c','r','e','a','t','e'], ['C','R','E','A','T','E']), (['c','r','o','s','s'], ['C','R','O','S','S']),
   (['c','u','r','r','e','n','t','_','d','a','t','e'], ['C','U','R','R','E','N','T','_','D','A','T','E']),
   (['c','u','r','r','e','n','t','_','t','i','m','e'], ['C','U','R','R','E','N','T','_','T','I','M','E']),
   (['c','u','r','r','e','n','t','_','t','i','m','e','s','t','a','m','p'], ['C','U','R','R','E','N','T','_','T','I','M','E','S','T','A','M','P']),
   (['c','u','r','r','e','n','t','_','u','s','e','r'], ['C','U','R','R','E','N','T','_','U','S','E','R']),
   (['c','u','r','s','o','r'], ['U','N','U','S','E','D']), (['c','y','c','l','e'], ['C','Y','C','L','E']),
   (['d','a','t','a','b','a','s','e'], ['D','A','T','A','B','A','S','E']),
   (['d','a','t','a','b','a','s','e','s'], ['D','A','T','A','B','A','S','E','S']),
   (['d','a','y','_','h','o','u','r'], ['U','N','U','S','E','D']),
   (['d','a','y','_','m','i','c','r','o','s','e','c','o','n','d'], ['U','N','U','S','E','D']),
   (['d','a','y','_','m','i','n','u','t','e'], ['U','N','U','S','E','D']),
   (['d','a','y','_','s','e','c','o','n','d'], ['U','N','U','S','E','D']),
   (['d','a','t','e'], ['D','A','T','E']),
   (['d','a','t','e','t','i','m','e'], ['D','A','T','E','T','I','M','E']),
   (['d','a','t','e','t','i','m','e','2'], ['D','A','T','E','T','I','M','E','2']),
   (['d','a','t','e','t','i','m','e','o','f','f','s','e','t'], ['D','A','T','E','T','I','M','E','O','F','F','S','E','T']),
   (['d','e','c'], ['U','N','U','S','E','D']), (['d','e','c','i','m','a','l'], ['D','E','C','I','M','A','L']),
   (['d','e','c','l','a','r','e'], ['U','N','U','S','E','D']),
   (['d','e','f','a','u','l','t'], ['D','E','F','A','U','L','T']),
   (['d','e','l','a','y','e','d'], ['U','N','U','S','E','D']),
   (['d','e','l','e','t','e'], ['D','E','L','E','T','E']), (['d','e','s','c'], ['D','E','S','C']),
   (['d','e','s','c','r','i','b','e'], ['D','E','S','C','R','I','B','E']),
   (['d','e','t','e','r','m','i','n','i','s','t','i','c'], ['U','N','U','S','E','D']),
   (['d','i','s','t','i','n','c','t'], ['D','I','S','T','I','N','C','T']),
   (['d','i','s','t','i','n','c','t','r','o','w'], ['U','N','U','S','E','D']), (['d','i','v'], ['D','I','V']),
   (['d','o','u','b','l','e'], ['D','O','U','B','L','E']), (['d','r','o','p'], ['D','R','O','P']),
   (['d','u','p','l','i','c','a','t','e'], ['D','U','P','L','I','C','A','T','E']),
   (['e','a','c','h'], ['E','A','C','H']), (['e','l','s','e'], ['E','L','S','E']),
   (['e','l','s','e','i','f'], ['U','N','U','S','E','D']),
   (['e','n','c','l','o','s','e','d'], ['U','N','U','S','E','D']), (['e','n','d'], ['E','N','D']),
   (['e','n','u','m'], ['E','N','U','M']), (['e','s','c','a','p','e'], ['E','S','C','A','P','E']),
   (['e','s','c','a','p','e','d'], ['U','N','U','S','E','D']),
   (['e','x','i','s','t','s'], ['E','X','I','S','T','S']), (['e','x','i','t'], ['U','N','U','S','E','D']),
   (['e','x','p','l','a','i','n'], ['E','X','P','L','A','I','N']),
   (['e','x','p','a','n','s','i','o','n'], ['E','X','P','A','N','S','I','O','N']),
   (['e','x','t','e','n','d','e','d'], ['E','X','T','E','N','D','E','D']),
   (['f','a','l','s','e'], ['F','A','L','S','E']), (['f','e','t','c','h'], ['U','N','U','S','E','D']),
   (['f','l','o','a','t'], ['F','L','O','A','T','_','T','Y','P','E']),
   (['f','l','o','a','t','4'], ['U','N','U','S','E','D']),
   (['f','l','o','a','t','8'], ['U','N','U','S','E','D']), (['f','o','r'], ['F','O','R']),
   (['f','o','r','c','e'], ['F','O','R','C','E']),
   (['f','o','r','e','i','g','n'], ['F','O','R','E','I','G','N']), (['f','r','o','m'], ['F','R','O','M']),
   (['f','u','l','l'], ['F','U','L','L']),
   (['f','u','l','l','t','e','x','t'], ['F','U','L','L','T','E','X','T']),
   (['g','e','n','e','r','a','t','e','d'], ['G','E','N','E','R','A','T','E','D']),
   (['g','e','o','m','e','t','r','y'], ['G','E','O','M','E','T','R','Y']),
   (['g','e','o','m','e','t','r','y','c','o','l','l','e','c','t','i','o','n'], ['G','E','O','M','E','T','R','Y','C','O','L','L','E','C','T','I','O','N']),
   (['g','e','t'], ['U','N','U','S','E','D']), (['g','e','t','d','a','t','e'], ['G','E','T','D','A','T','E']),
   (['g','l','o','b','a','l'], ['G','L','O','B','A','L']), (['g','r','a','n','t'], ['U','N','U','S','E','D']),
   (['g','r','o','u','p'], ['G','R','O','U','P']),
   (['g','r','o','u','p','_','c','o','n','c','a','t'], ['G','R','O','U','P','_','C','O','N','C','A','T']),
   (['h','a','v','i','n','g'], ['H','A','V','I','N','G']),
   (['h','i','g','h','_','p','r','i','o','r','i','t','y'], ['U','N','U','S','E','D']),
   (['h','o','u','r','_','m','i','c','r','o','s','e','c','o','n','d'], ['U','N','U','S','E','D']),
   (['h','o','u','r','_','m','i','n','u','t','e'], ['U','N','U','S','E','D']),
   (['h','o','u','r','_','s','e','c','o','n','d'], ['U','N','U','S','E','D']),
   (['i','d','e','n','t','i','t','y'], ['I','D','E','N','T','I','T','Y']), (['i','f'], ['I','F']),
   (['i','g','n','o','r','e'], ['I','G','N','O','R','E']), (['i','n'], ['I','N']),
   (['i','n','c','l','u','d','e'], ['I','N','C','L','U','D','E']),
   (['i','n','c','r','e','m','e','n','t'], ['I','N','C','R','E','M','E','N','T']),
   (['i','n','d','e','x'], ['I','N','D','E','X']), (['i','n','f','i','l','e'], ['U','N','U','S','E','D']),
   (['i','n','o','u','t'], ['U','N','U','S','E','D']), (['i','n','n','e','r'], ['I','N','N','E','R']),
   (['i','n','s','e','n','s','i','t','i','v','e'], ['U','N','U','S','E','D']),
   (['i','n','s','e','r','t'], ['I','N','S','E','R','T']), (['i','n','t'], ['I','N','T']),
   (['i','n','t','1'], ['U','N','U','S','E','D']), (['i','n','t','2'], ['U','N','U','S','E','D']),
   (['i','n','t','3'], ['U','N','U','S','E','D']), (['i','n','t','4'], ['U','N','U','S','E','D']),
   (['i','n','t','8'], ['U','N','U','S','E','D']),
   (['i','n','t','e','g','e','r'], ['I','N','T','E','G','E','R']),
   (['i','n','t','e','r','v','a','l'], ['I','N','T','E','R','V','A','L']),
   (['i','n','t','o'], ['I','N','T','O']),
   (['i','o','_','a','f','t','e','r','_','g','t','i','d','s'], ['U','N','U','S','E','D']),
   (['i','s'], ['I','S']), (['i','s','o','l','a','t','i','o','n'], ['I','S','O','L','A','T','I','O','N']),
   (['i','n','h','e','r','i','t'], ['I','N','H','E','R','I','T']),
   (['i','t','e','r','a','t','e'], ['U','N','U','S','E','D']), (['j','o','i','n'], ['J','O','I','N']),
   (['j','s','o','n'], ['J','S','O','N']), (['j','s','o','n','b'], ['J','S','O','N','B']),
   (['k','e','y'], ['K','E','Y']), (['k','e','y','s'], ['K','E','Y','S']),
   (['k','e','y','_','b','l','o','c','k','_','s','i','z','e'], ['K','E','Y','_','B','L','O','C','K','_','S','I','Z','E']),
   (['k','i','l','l'], ['U','N','U','S','E','D']),
   (['l','a','n','g','u','a','g','e'], ['L','A','N','G','U','A','G','E']),
   (['l','a','s','t','_','i','n','s','e','r','t','_','i','d'], ['L','A','S','T','_','I','N','S','E','R','T','_','I','D']),
   (['l','e','a','d','i','n','g'], ['U','N','U','S','E','D']),
   (['l','e','a','v','e'], ['U','N','U','S','E','D']), (['l','e','f','t'], ['L','E','F','T']),
   (['l','e','s','s'], ['L','E','S','S']), (['l','e','v','e','l'], ['L','E','V','E','L']),
   (['l','i','k','e'], ['L','I','K','E']), (['l','i','m','i','t'], ['L','I','M','I','T']),
   (['l','i','n','e','a','r'], ['U','N','U','S','E','D']), (['l','i','n','e','s'], ['U','N','U','S','E','D']),
   (['l','i','n','e','s','t','r','i','n','g'], ['L','I','N','E','S','T','R','I','N','G']),
   (['l','o','a','d'], ['U','N','U','S','E','D']),
   (['l','o','c','a','l','t','i','m','e'], ['L','O','C','A','L','T','I','M','E']),
   (['l','o','c','a','l','t','i','m','e','s','t','a','m','p'], ['L','O','C','A','L','T','I','M','E','S','T','A','M','P']),
   (['l','o','c','k'], ['L','O','C','K']), (['l','o','n','g'], ['U','N','U','S','E','D']),
   (['l','o','n','g','b','l','o','b'], ['L','O','N','G','B','L','O','B']),
   (['l','o','n','g','t','e','x','t'], ['L','O','N','G','T','E','X','T']),
   (['l','o','o','p'], ['U','N','U','S','E','D']),
   (['l','o','w','_','p','r','i','o','r','i','t','y'], ['U','N','U','S','E','D']),
   (['m','a','s','t','e','r','_','b','i','n','d'], ['U','N','U','S','E','D']),
   (['m','a','t','c','h'], ['M','A','T','C','H']),
   (['m','a','x','v','a','l','u','e'], ['M','A','X','V','A','L','U','E']),
   (['m','e','d','i','u','m','b','l','o','b'], ['M','E','D','I','U','M','B','L','O','B']),
   (['m','e','d','i','u','m','i','n','t'], ['M','E','D','I','U','M','I','N','T']),
   (['m','e','d','i','u','m','t','e','x','t'], ['M','E','D','I','U','M','T','E','X','T']),
   (['m','i','d','d','l','e','i','n','t'], ['U','N','U','S','E','D']),
   (['m','i','n','u','t','e','_','m','i','c','r','o','s','e','c','o','n','d'], ['U','N','U','S','E','D']),
   (['m','i','n','u','t','e','_','s','e','c','o','n','d'], ['U','N','U','S','E','D']),
   (['m','i','n','v','a','l','u','e'], ['M','I','N','V','A','L','U','E']), (['m','o','d'], ['M','O','D']),
   (['m','o','d','e'], ['M','O','D','E']), (['m','o','d','i','f','i','e','s'], ['U','N','U','S','E','D']),
   (['m','o','n','e','y'], ['M','O','N','E','Y']),
   (['m','u','l','t','i','l','i','n','e','s','t','r','i','n','g'], ['M','U','L','T','I','L','I','N','E','S','T','R','I','N','G']),
   (['m','u','l','t','i','p','o','i','n','t'], ['M','U','L','T','I','P','O','I','N','T']),
   (['m','u','l','t','i','p','o','l','y','g','o','n'], ['M','U','L','T','I','P','O','L','Y','G','O','N']),
   (['n','a','m','e','s'], ['N','A','M','E','S']),
   (['n','a','t','u','r','a','l'], ['N','A','T','U','R','A','L']),
   (['n','c','h','a','r'], ['N','C','H','A','R']), (['n','e','x','t'], ['N','E','X','T']),
   (['n','o'], ['N','O']), (['n','o','n','e'], ['N','O','N','E']), (['n','o','t'], ['N','O','T']),
   (['n','o','w'], ['N','O','W']),
   (['n','o','_','w','r','i','t','e','_','t','o','_','b','i','n','l','o','g'], ['U','N','U','S','E','D']),
   (['n','t','e','x','t'], ['N','T','E','X','T']), (['n','u','l','l'], ['N','U','L','L']),
   (['n','u','m','e','r','i','c'], ['N','U','M','E','R','I','C']),
   (['n','v','a','r','c','h','a','r'], ['N','V','A','R','C','H','A','R']),
   (['o','f','f','s','e','t'], ['O','F','F','S','E','T']), (['o','n'], ['O','N']),
   (['o','n','l','y'], ['O','N','L','Y']),
   (['o','p','t','i','m','i','z','e'], ['O','P','T','I','M','I','Z','E']),
   (['o','p','t','i','m','i','z','e','r','_','c','o','s','t','s'], ['U','N','U','S','E','D']),
   (['o','p','t','i','o','n'], ['U','N','U','S','E','D']),
   (['o','p','t','i','o','n','a','l','l','y'], ['U','N','U','S','E','D']), (['o','r'], ['O','R']),
   (['o','r','d','e','r'], ['O','R','D','E','R']), (['o','u','t'], ['U','N','U','S','E','D']),
   (['o','u','t','e','r'], ['O','U','T','E','R']), (['o','u','t','f','i','l','e'], ['U','N','U','S','E','D']),
   (['o','w','n','e','d'], ['O','W','N','E','D']), (['p','a','r','s','e','r'], ['P','A','R','S','E','R']),
   (['p','a','r','t','i','t','i','o','n'], ['P','A','R','T','I','T','I','O','N']),
   (['p','e','r','m','i','s','s','i','v','e'], ['P','E','R','M','I','S','S','I','V','E']),
   (['p','o','i','n','t'], ['P','O','I','N','T']), (['p','o','l','i','c','y'], ['P','O','L','I','C','Y']),
   (['p','o','l','y','g','o','n'], ['P','O','L','Y','G','O','N']),
   (['p','r','e','c','i','s','i','o','n'], ['P','R','E','C','I','S','I','O','N']),
   (['p','r','i','m','a','r','y'], ['P','R','I','M','A','R','Y']),
   (['p','r','o','c','e','s','s','l','i','s','t'], ['P','R','O','C','E','S','S','L','I','S','T']),
   (['p','r','o','c','e','d','u','r','e'], ['P','R','O','C','E','D','U','R','E']),
   (['q','u','e','r','y'], ['Q','U','E','R','Y']),
   (['r','e','s','t','r','i','c','t','i','v','e'], ['R','E','S','T','R','I','C','T','I','V','E']),
   (['r','a','n','g','e'], ['U','N','U','S','E','D']), (['r','e','a','d'], ['R','E','A','D']),
   (['r','e','a','d','s'], ['U','N','U','S','E','D']),
   (['r','e','a','d','_','w','r','i','t','e'], ['U','N','U','S','E','D']),
   (['r','e','a','l'], ['R','E','A','L']),
   (['r','e','f','e','r','e','n','c','e','s'], ['R','E','F','E','R','E','N','C','E','S']),
   (['r','e','g','e','x','p'], ['R','E','G','E','X','P']),
   (['r','e','l','e','a','s','e'], ['U','N','U','S','E','D']),
   (['r','e','n','a','m','e'], ['R','E','N','A','M','E']),
   (['r','e','o','r','g','a','n','i','z','e'], ['R','E','O','R','G','A','N','I','Z','E']),
   (['r','e','p','a','i','r'], ['R','E','P','A','I','R']),
   (['r','e','p','e','a','t'], ['U','N','U','S','E','D']),
   (['r','e','p','e','a','t','a','b','l','e'], ['R','E','P','E','A','T','A','B','L','E']),
   (['r','e','p','l','a','c','e'], ['R','E','P','L','A','C','E']),
   (['r','e','p','l','i','c','a','t','i','o','n'], ['R','E','P','L','I','C','A','T','I','O','N']),
   (['r','e','q','u','i','r','e'], ['U','N','U','S','E','D']),
   (['r','e','s','i','g','n','a','l'], ['U','N','U','S','E','D']),
   (['r','e','s','t','r','i','c','t'], ['R','E','S','T','R','I','C','T']),
   (['r','e','t','u','r','n'], ['U','N','U','S','E','D']),
   (['r','e','v','o','k','e'], ['U','N','U','S','E','D']), (['r','i','g','h','t'], ['R','I','G','H','T']),
   (['r','l','i','k','e'], ['R','E','G','E','X','P']),
   (['r','o','l','l','b','a','c','k'], ['R','O','L','L','B','A','C','K']), (['r','o','w'], ['R','O','W']),
   (['s','c','h','e','m','a'], ['S','C','H','E','M','A']),
   (['s','c','h','e','m','a','s'], ['U','N','U','S','E','D']),
   (['s','e','c','o','n','d','_','m','i','c','r','o','s','e','c','o','n','d'], ['U','N','U','S','E','D']),
   (['s','e','l','e','c','t'], ['S','E','L','E','C','T']),
   (['s','e','n','s','i','t','i','v','e'], ['U','N','U','S','E','D']),
   (['s','e','p','a','r','a','t','o','r'], ['S','E','P','A','R','A','T','O','R']),
   (['s','e','q','u','e','n','c','e'], ['U','N','U','S','E','D']),
   (['s','e','r','i','a','l'], ['S','E','R','I','A','L']),
   (['s','e','r','i','a','l','i','z','a','b','l','e'], ['S','E','R','I','A','L','I','Z','A','B','L','E']),
   (['s','e','s','s','i','o','n'], ['S','E','S','S','I','O','N']), (['s','e','t'], ['S','E','T']),
   (['s','h','a','r','e'], ['S','H','A','R','E']), (['s','h','o','w'], ['S','H','O','W']),
   (['s','i','g','n','a','l'], ['U','N','U','S','E','D']),
   (['s','i','g','n','e','d'], ['S','I','G','N','E','D']),
   (['s','m','a','l','l','d','a','t','e','t','i','m','e'], ['S','M','A','L','L','D','A','T','E','T','I','M','E']),
   (['s','m','a','l','l','i','n','t'], ['S','M','A','L','L','I','N','T']),
   (['s','m','a','l','l','m','o','n','e','y'], ['S','M','A','L','L','M','O','N','E','Y']),
   (['s','m','a','l','l','s','e','r','i','a','l'], ['S','M','A','L','L','S','E','R','I','A','L']),
   (['s','p','a','t','i','a','l'], ['S','P','A','T','I','A','L']),
   (['s','p','e','c','i','f','i','c'], ['U','N','U','S','E','D']), (['s','q','l'], ['U','N','U','S','E','D']),
   (['s','q','l','e','x','c','e','p','t','i','o','n'], ['U','N','U','S','E','D']),
   (['s','q','l','s','t','a','t','e'], ['U','N','U','S','E','D']),
   (['s','q','l','w','a','r','n','i','n','g'], ['U','N','U','S','E','D']),
   (['s','q','l','_','b','i','g','_','r','e','s','u','l','t'], ['U','N','U','S','E','D']),
   (['s','q','l','_','c','a','c','h','e'], ['S','Q','L','_','C','A','C','H','E']),
   (['s','q','l','_','c','a','l','c','_','f','o','u','n','d','_','r','o','w','s'], ['U','N','U','S','E','D']),
   (['s','q','l','_','n','o','_','c','a','c','h','e'], ['S','Q','L','_','N','O','_','C','A','C','H','E']),
   (['s','q','l','_','s','m','a','l','l','_','r','e','s','u','l','t'], ['U','N','U','S','E','D']),
   (['s','s','l'], ['U','N','U','S','E','D']), (['s','t','a','r','t'], ['S','T','A','R','T']),
   (['s','t','a','r','t','i','n','g'], ['U','N','U','S','E','D']),
   (['s','t','a','t','u','s'], ['S','T','A','T','U','S']),
   (['s','t','o','r','e','d'], ['U','N','U','S','E','D']),
   (['s','t','r','a','i','g','h','t','_','j','o','i','n'], ['S','T','R','A','I','G','H','T','_','J','O','I','N']),
   (['s','t','r','e','a','m'], ['S','T','R','E','A','M']), (['t','a','b','l','e'], ['T','A','B','L','E']),
   (['t','a','b','l','e','s'], ['T','A','B','L','E','S']),
   (['t','e','r','m','i','n','a','t','e','d'], ['U','N','U','S','E','D']),
   (['t','e','x','t'], ['T','E','X','T']), (['t','h','a','n'], ['T','H','A','N']),
   (['t','h','e','n'], ['T','H','E','N']), (['t','i','m','e'], ['T','I','M','E']),
   (['t','i','m','e','s','t','a','m','p'], ['T','I','M','E','S','T','A','M','P']),
   (['t','i','n','y','b','l','o','b'], ['T','I','N','Y','B','L','O','B']),
   (['t','i','n','y','i','n','t'], ['T','I','N','Y','I','N','T']),
   (['t','i','n','y','t','e','x','t'], ['T','I','N','Y','T','E','X','T']), (['t','o'], ['T','O']),
   (['t','r','a','i','l','i','n','g'], ['U','N','U','S','E','D']),
   (['t','r','a','n','s','a','c','t','i','o','n'], ['T','R','A','N','S','A','C','T','I','O','N']),
   (['t','r','i','g','g','e','r'], ['T','R','I','G','G','E','R']), (['t','r','u','e'], ['T','R','U','E']),
   (['t','r','u','n','c','a','t','e'], ['T','R','U','N','C','A','T','E']),
   (['u','n','c','o','m','m','i','t','t','e','d'], ['U','N','C','O','M','M','I','T','T','E','D']),
   (['u','n','d','o'], ['U','N','U','S','E','D']), (['u','n','i','o','n'], ['U','N','I','O','N']),
   (['u','n','i','q','u','e'], ['U','N','I','Q','U','E']),
   (['u','n','l','o','c','k'], ['U','N','U','S','E','D']),
   (['u','n','s','i','g','n','e','d'], ['U','N','S','I','G','N','E','D']),
   (['u','p','d','a','t','e'], ['U','P','D','A','T','E']), (['u','s','a','g','e'], ['U','N','U','S','E','D']),
   (['u','s','e'], ['U','S','E']), (['u','s','i','n','g'], ['U','S','I','N','G']),
   (['u','t','c','_','d','a','t','e'], ['U','T','C','_','D','A','T','E']),
   (['u','t','c','_','t','i','m','e'], ['U','T','C','_','T','I','M','E']),
   (['u','t','c','_','t','i','m','e','s','t','a','m','p'], ['U','T','C','_','T','I','M','E','S','T','A','M','P']),
   (['u','u','i','d'], ['U','U','I','D']), (['v','a','l','u','e','s'], ['V','A','L','U','E','S']),
   (['v','a','r','i','a','b','l','e','s'], ['V','A','R','I','A','B','L','E','S']),
   (['v','a','r','b','i','n','a','r','y'], ['V','A','R','B','I','N','A','R','Y']),
   (['v','a','r','c','h','a','r'], ['V','A','R','C','H','A','R']),
   (['v','a','r','c','h','a','r','a','c','t','e','r'], ['U','N','U','S','E','D']),
   (['v','a','r','y','i','n','g'], ['V','A','R','Y','I','N','G']),
   (['v','i','r','t','u','a','l'], ['U','N','U','S','E','D']),
   (['v','i','n','d','e','x'], ['V','I','N','D','E','X']),
   (['v','i','n','d','e','x','e','s'], ['V','I','N','D','E','X','E','S']),
   (['v','i','e','w'], ['V','I','E','W']),
   (['v','i','t','e','s','s','_','k','e','y','s','p','a','c','e','s'], ['V','I','T','E','S','S','_','K','E','Y','S','P','A','C','E','S']),
   (['v','i','t','e','s','s','_','s','h','a','r','d','s'], ['V','I','T','E','S','S','_','S','H','A','R','D','S']),
   (['v','i','t','e','s','s','_','t','a','b','l','e','t','s'], ['V','I','T','E','S','S','_','T','A','B','L','E','T','S']),
   (['v','s','c','h','e','m','a','_','t','a','b','l','e','s'], ['V','S','C','H','E','M','A','_','T','A','B','L','E','S']),
   (['w','h','e','n'], ['W','H','E','N']), (['w','h','e','r','e'], ['W','H','E','R','E']),
   (['w','h','i','l','e'], ['U','N','U','S','E','D']), (['w','i','t','h'], ['W','I','T','H']),
   (['w','i','t','h','o','u','t'], ['W','I','T','H','O','U','T']),
   (['w','r','i','t','e'], ['W','R','I','T','E']), (['x','o','r'], ['U','N','U','S','E','D']),
   (['y','e','a','r'], ['Y','E','A','R']),
   (['y','e','a','r','_','m','o','n','t','h'], ['U','N','U','S','E','D']),
   (['z','e','r','o','f','i','l','l'], ['Z','E','R','O','F','I','L','L']),
   (['z','o','n','e'], ['Z','O','N','E']), ([':',':'], ['T','Y','P','E','C','A','S','T']),
   (['a','l','l','o','w','_','p','a','g','e','_','l','o','c','k','s'], ['A','L','L','O','W','_','P','A','G','E','_','L','O','C','K','S']),
   (['a','l','l','o','w','_','r','o','w','_','l','o','c','k','s'], ['A','L','L','O','W','_','R','O','W','_','L','O','C','K','S']),
   (['f','i','l','l','f','a','c','t','o','r'], ['F','I','L','L','F','A','C','T','O','R']),
   (['i','g','n','o','r','e','_','d','u','p','_','k','e','y'], ['I','G','N','O','R','E','_','D','U','P','_','K','E','Y']),
   (['o','f','f'], ['O','F','F']),
   (['p','a','d','_','i','n','d','e','x'], ['P','A','D','_','I','N','D','E','X']),
   (['s','t','a','t','i','s','t','i','c','s','_','i','n','c','r','e','m','e','n','t','a','l'], ['S','T','A','T','I','S','T','I','C','S','_','I','N','C','R','E','M','E','N','T','A','L']),
   (['s','t','a','t','i','s','t','i','c','s','_','n','o','r','e','c','o','m','p','u','t','e'], ['S','T','A','T','I','S','T','I','C','S','_','N','O','R','E','C','O','M','P','U','T','E'])]

set_option maxRecDepth 10000 in
theorem keywordWords_eq : keywordWords = keywordTable.map fun p => (lit p.1, lit p.2) := by decide +kernel

/-- A part of `keywordTree`. -/
def keywordTreeLLL : WordTree Str :=
  .node (.node (.node (.node (.node (.node .leaf 123732027 ['T','Y','P','E','C','A','S','T'] .leaf) 216006762 ['I','F'] .leaf) 232783978 ['I','N'] (.node (.node .leaf 232783984 ['O','N'] .leaf) 234881135 ['N','O'] .leaf)) 234881141 ['T','O'] (.node (.node (.node .leaf 241172592 ['O','R'] .leaf) 243269730 ['A','S'] .leaf) 243269738 ['I','S'] (.node (.node .leaf 255852643 ['B','Y'] .leaf) 439804865020005 ['U','N','U','S','E','D'] .leaf))) 439804894380130 ['A','S','C'] (.node (.node (.node (.node .leaf 444202909433954 ['A','D','D'] .leaf) 444202930405474 ['A','N','D'] .leaf) 444202930405478 ['E','N','D'] (.node (.node .leaf 444202932502638 ['M','O','D'] .leaf) 448600987402358 ['U','S','E'] .leaf)) 452999006650480 ['O','F','F'] (.node (.node (.node .leaf 479387298300002 ['A','L','L'] .leaf) 479387308785780 ['U','N','U','S','E','D'] .leaf) 479387312980084 ['U','N','U','S','E','D'] (.node .leaf 505775583658087 ['F','O','R'] .leaf)))) 505775583658105 ['U','N','U','S','E','D'] (.node (.node (.node (.node (.node .leaf 514571655708776 ['U','N','U','S','E','D'] .leaf) 514571655708788 ['S','E','T'] .leaf) 514571664097379 ['B','I','T'] (.node (.node .leaf 514571674583146 ['I','N','T'] .leaf) 514571676680303 ['N','O','T'] .leaf)) 514571689263216 ['U','N','U','S','E','D'] (.node (.node (.node .leaf 523367757119589 ['D','I','V'] .leaf) 527765816213615 ['N','O','W'] .leaf) 527765816213619 ['R','O','W'] (.node (.node .leaf 536561888264300 ['K','E','Y'] .leaf) 461169116414413373546 ['U','N','U','S','E','D'] .leaf))) 470392488451268149354 ['U','N','U','S','E','D'] (.node (.node (.node (.node .leaf 479615860488122925162 ['U','N','U','S','E','D'] .leaf) 488839232524977700970 ['U','N','U','S','E','D'] .leaf) 525732720672396804202 ['U','N','U','S','E','D'] (.node (.node .leaf 913114324230060638307 ['B','L','O','B'] .leaf) 922337713859086778469 ['D','E','S','C'] .leaf)) 931561006731104354419 ['R','E','A','D'] (.node (.node (.node .leaf 931561006731125325933 ['U','N','U','S','E','D'] .leaf) 931561041915509997686 ['U','U','I','D'] .leaf) 940784391962119635054 ['M','O','D','E'] (.node .leaf 940784422748432629869 ['L','I','K','E'] .leaf))))

/-- A part of `keywordTree`. -/
def keywordTreeLLR : WordTree Str :=
  .node (.node (.node (.node (.node (.node .leaf 940784435942584746095 ['N','O','N','E'] .leaf) 940784435942584746107 ['Z','O','N','E'] .leaf) 940784457932787941476 ['C','A','S','E'] (.node (.node .leaf 940784457932811010150 ['E','L','S','E'] .leaf) 940784462330834452581 ['D','A','T','E'] .leaf)) 940784466728916615285 ['T','R','U','E'] (.node (.node (.node .leaf 959231180016294297709 ['U','N','U','S','E','D'] .leaf) 968454503674608091238 ['E','A','C','H'] .leaf) 968454578441415557240 ['W','I','T','H'] (.node (.node .leaf 968454578441428140131 ['U','N','U','S','E','D'] .leaf) 996124619785201778797 ['L','O','C','K'] .leaf))) 1005347983025942560883 ['R','E','A','L'] (.node (.node (.node (.node .leaf 1005348031404445794404 ['U','N','U','S','E','D'] .leaf) 1005348031404462571628 ['U','N','U','S','E','D'] .leaf) 1005348031404487737447 ['F','U','L','L'] (.node (.node .leaf 1005348031404487737455 ['N','U','L','L'] .leaf) 1005348044598614687843 ['B','O','O','L'] .leaf)) 1014571416635475755111 ['F','R','O','M'] (.node (.node (.node .leaf 1014571443023746433126 ['E','N','U','M'] .leaf) 1023794727099658403957 ['T','H','A','N'] .leaf) 1023794744691844448373 ['T','H','E','N'] (.node .leaf 1023794744691844448376 ['W','H','E','N'] .leaf)))) 1023794762284045172843 ['J','O','I','N'] (.node (.node (.node (.node (.node .leaf 1023794788672332628075 ['J','S','O','N'] .leaf) 1033018112330665295990 ['U','N','U','S','E','D'] .leaf) 1033018182699409473642 ['I','N','T','O'] (.node (.node .leaf 1042241532746033791085 ['U','N','U','S','E','D'] .leaf) 1042241532746040082533 ['D','R','O','P'] .leaf)) 1060688215247071215738 ['Y','E','A','R'] (.node (.node (.node .leaf 1060688215247077507172 ['C','H','A','R'] .leaf) 1069911666448763191405 ['L','E','S','S'] .leaf) 1069911692837042258028 ['K','E','Y','S'] (.node .leaf 1079134981311013322861 ['L','E','F','T'] .leaf))) 1079134994505192702054 ['U','N','U','S','E','D'] (.node (.node (.node (.node .leaf 1079135038485609578596 ['C','A','S','T'] .leaf) 1079135060475850522735 ['N','E','X','T'] .leaf) 1079135060475850522741 ['T','E','X','T'] (.node (.node .leaf 1106805093023539527799 ['V','I','E','W'] .leaf) 1106805137004002541684 ['S','H','O','W'] .leaf)) 1125251867883585142896 ['O','N','L','Y'] (.node (.node (.node .leaf 1914939522064361285067210859 ['J','S','O','N','B'] .leaf) 1953625065281676688926703728 ['O','W','N','E','D'] .leaf) 1972967859948784274181718119 ['F','O','R','C','E'] (.node .leaf 1972967896842197654818521206 ['U','N','U','S','E','D'] .leaf))))

/-- A part of `keywordTree`. -/
def keywordTreeLL : WordTree Str :=
  .node keywordTreeLLL 940784431544525652085 ['T','I','M','E'] keywordTreeLLR

/-- A part of `keywordTree`. -/
def keywordTreeLRL : WordTree Str :=
  .node (.node (.node (.node (.node (.node .leaf 1972967906065578487728570468 ['C','A','C','H','E'] .leaf) 1972967933735720986595033203 ['R','E','G','E','X','P'] .leaf) 1972967942959062237101162613 ['T','A','B','L','E'] (.node (.node .leaf 1972967942959066635198005348 ['C','Y','C','L','E'] .leaf) 1972967942959093023441420408 ['U','N','U','S','E','D'] .leaf)) 1972967998299290060197986420 ['S','H','A','R','E'] (.node (.node (.node .leaf 1972967998299307652384030840 ['W','H','E','R','E'] .leaf) 1972968007522710475549704295 ['F','A','L','S','E'] .leaf) 1972968016746069318300598392 ['W','R','I','T','E'] (.node (.node .leaf 1972968035192778207610798189 ['U','N','U','S','E','D'] .leaf) 2011653587633505230764638326 ['U','S','I','N','G'] .leaf))) 2030996299290295270631276654 ['M','A','T','C','H'] (.node (.node (.node (.node .leaf 2030996299290295270639665255 ['U','N','U','S','E','D'] .leaf) 2089024738631731500334186596 ['C','H','E','C','K'] .leaf) 2108367570192384407623434349 ['L','E','V','E','L'] (.node (.node .leaf 2147053233313474717935468643 ['B','E','G','I','N'] .leaf) 2147053288653715735176020086 ['U','N','I','O','N'] .leaf)) 2185738970221642478182727784 ['G','R','O','U','P'] (.node (.node (.node .leaf 2224424411981839088320774255 ['N','C','H','A','R'] .leaf) 2224424448875309643585290352 ['O','R','D','E','R'] .leaf) 2224424448875353624042012778 ['I','N','N','E','R'] (.node .leaf 2224424448875380012304302178 ['A','F','T','E','R'] .leaf)))) 2224424448875380012316885090 ['A','L','T','E','R'] (.node (.node (.node (.node (.node .leaf 2224424448875380012335759472 ['O','U','T','E','R'] .leaf) 2243767252765758479359017075 ['U','N','U','S','E','D'] .leaf) 2243767261989183292763537519 ['N','A','M','E','S'] (.node (.node .leaf 2243767261989187690826825837 ['U','N','U','S','E','D'] .leaf) 2243767391116400604859072612 ['C','R','O','S','S'] .leaf)) 2263110038209538008255823975 ['F','L','O','A','T','_','T','Y','P','E'] (.node (.node (.node .leaf 2263110102773107081860874355 ['R','I','G','H','T'] .leaf) 2263110111996505506994716781 ['L','I','M','I','T'] .leaf) 2263110158113312914729336936 ['U','N','U','S','E','D'] (.node .leaf 2263110158113348099095134321 ['P','O','I','N','T'] .leaf))) 2263110195006801062152634484 ['S','T','A','R','T'] (.node (.node (.node (.node .leaf 2263110222676978745355534442 ['U','N','U','S','E','D'] .leaf) 2263110250347050875467333743 ['N','T','E','X','T'] .leaf) 2340481327558314044348694634 ['I','N','D','E','X'] (.node (.node .leaf 2359824103778721536384434274 ['A','R','R','A','Y'] .leaf) 2359824140672192091611201646 ['M','O','N','E','Y'] .leaf)) 2359824260575988988317270130 ['Q','U','E','R','Y'] (.node (.node (.node .leaf 2149937681097115274476416892141671 ['U','N','U','S','E','D'] .leaf) 2312196957926328637867994902429799 ['U','N','U','S','E','D'] .leaf) 3975354410026110709250563015442548 ['S','C','H','E','M','A'] (.node .leaf 4097048712905598831465645819822196 ['S','I','G','N','E','D'] .leaf))))

/-- A part of `keywordTree`. -/
def keywordTreeLRR : WordTree Str :=
  .node (.node (.node (.node (.node (.node .leaf 4137613570798528399955285631828068 ['U','N','U','S','E','D'] .leaf) 4137613648169790078755948638240883 ['U','N','U','S','E','D'] .leaf) 4137613667512483288749138295914597 ['D','O','U','B','L','E'] (.node (.node .leaf 4137613667512547852287425579581546 ['U','N','U','S','E','D'] .leaf) 4137613686855287179180381889888371 ['R','E','N','A','M','E'] .leaf)) 4137613744883726520634203793522790 ['E','S','C','A','P','E'] (.node (.node (.node .leaf 4137613783569481875524047461154915 ['B','E','F','O','R','E'] .leaf) 4137613783569481875559231837438058 ['I','G','N','O','R','E'] .leaf) 4137613822254978975974869014937718 ['U','P','D','A','T','E'] (.node (.node .leaf 4137613822254978975979267065643108 ['C','R','E','A','T','E'] .leaf) 4137613822255015869498200783061093 ['D','E','L','E','T','E'] .leaf))) 4137613841597939663783515715010678 ['U','N','I','Q','U','E'] (.node (.node (.node (.node .leaf 4178178428691374958202146877603942 ['U','N','U','S','E','D'] .leaf) 4218743344612780761721716892237929 ['H','A','V','I','N','G'] .leaf) 4381002408671105213126800845045878 ['U','N','U','S','E','D'] (.node (.node .leaf 4421567189192662422483276780273768 ['G','L','O','B','A','L'] .leaf) 4421567189192726986100728888557684 ['S','E','R','I','A','L'] .leaf)) 4421567189192773102912534659203188 ['U','N','U','S','E','D'] (.node (.node (.node .leaf 4462132008399993433460476003483764 ['S','T','R','E','A','M'] .leaf) 4502697059721201714243373436502116 ['C','O','L','U','M','N'] .leaf) 4502697098406717261482249116713058 ['A','C','T','I','O','N'] (.node .leaf 4502697098406717261482249143976048 ['U','N','U','S','E','D'] .leaf)))) 4502697156435267283448891764113523 ['U','N','U','S','E','D'] (.node (.node (.node (.node (.node .leaf 4583826910906605074139317259993203 ['R','E','G','E','X','P'] .leaf) 4664956104436510137682356307230829 ['U','N','U','S','E','D'] .leaf) 4664956104436537807750088374616163 ['B','P','C','H','A','R'] (.node (.node .leaf 4664956181807891720244731624554609 ['P','A','R','S','E','R'] .leaf) 4664956259178978154875539335151731 ['R','E','P','A','I','R'] .leaf)) 4664956375236022858585399619485796 ['U','N','U','S','E','D'] (.node (.node (.node .leaf 4664956471950088427685364851802228 ['S','U','B','S','T','R'] .leaf) 4705521001015130497417999399518325 ['T','A','B','L','E','S'] .leaf) 4705521001015213507810311557611639 ['V','A','L','U','E','S'] (.node .leaf 4705521291157391768564045686243430 ['E','X','I','S','T','S'] .leaf))) 4705521310500214105734964955840628 ['S','T','A','T','U','S'] (.node (.node (.node (.node .leaf 4705521387871291317099288902762594 ['A','L','W','A','Y','S'] .leaf) 4746085742851116819386941397008499 ['U','N','U','S','E','D'] .leaf) 4746085781536743047037482801561716 ['S','E','L','E','C','T'] (.node (.node .leaf 4746085820222498401887744082051184 ['O','F','F','S','E','T'] .leaf) 4746085897593695517022576479043684 ['C','O','M','M','I','T'] .leaf)) 4746085994307724192678374744784995 ['B','I','G','I','N','T'] (.node (.node (.node .leaf 4746086071678939754579271075496042 ['I','N','S','E','R','T'] .leaf) 4746086187735818437588069883314276 ['C','I','T','E','X','T'] .leaf) 4908345097051573414733953649082487 ['V','I','N','D','E','X'] (.node .leaf 4948909877573296644765102754496625 ['P','O','L','I','C','Y'] .leaf))))

/-- A part of `keywordTree`. -/
def keywordTreeLR : WordTree Str :=
  .node keywordTreeLRL 4097048712905635724988977634082932 ['U','N','U','S','E','D'] keywordTreeLRR

/-- A part of `keywordTree`. -/
def keywordTreeL : WordTree Str :=
  .node keywordTreeLL 1972967896842254829385416819 ['U','N','U','S','E','D'] keywordTreeLR

/-- A part of `keywordTree`. -/
def keywordTreeRLL : WordTree Str :=
  .node (.node (.node (.node (.node (.node .leaf 8507063472896521985187370411837488103535 ['N','U','M','E','R','I','C'] .leaf) 8592133902367441086176729471855940862054 ['U','N','U','S','E','D'] .leaf) 8592133902367615171494754018039487791205 ['U','N','U','S','E','D'] (.node (.node .leaf 8677204412967747145340641066502926106739 ['R','E','P','L','A','C','E'] .leaf) 8677204453532566352560971579259866841188 ['C','A','S','C','A','D','E'] .leaf)) 8677204453532953208906258538558748885098 ['I','N','C','L','U','D','E'] (.node (.node (.node .leaf 8677204778051274753520279155458902589552 ['U','N','U','S','E','D'] .leaf) 8677205021440035254890753727745860042853 ['U','N','U','S','E','D'] .leaf) 8677205021440189997478674810184566571123 ['U','N','U','S','E','D'] (.node (.node .leaf 8677205062004854462129531010964797784179 ['U','N','U','S','E','D'] .leaf) 8677205102569673669423648522006817669224 ['G','E','T','D','A','T','E'] .leaf))) 8677205102569673669497435463117304758372 ['C','O','L','L','A','T','E'] (.node (.node (.node (.node .leaf 8677205102569673669552775664552118321258 ['U','N','U','S','E','D'] .leaf) 8677205345959053140832212519708893642850 ['A','N','A','L','Y','Z','E'] .leaf) 8847346042641382399840201327327165022317 ['U','N','U','S','E','D'] (.node (.node .leaf 8847346042641382400033892214867897614455 ['V','A','R','Y','I','N','G'] .leaf) 9272698473949905784373562516578041331828 ['S','P','A','T','I','A','L'] .leaf)) 9272698473949983155524560769235889946725 ['D','E','C','I','M','A','L'] (.node (.node (.node .leaf 9272698473950079869700810478778906050671 ['N','A','T','U','R','A','L'] .leaf) 9272698473950137898130928600146360926327 ['U','N','U','S','E','D'] .leaf) 9442839657410297644779007569304555094115 ['B','O','O','L','E','A','N'] (.node .leaf 9442839819669574474093828075278179500131 ['B','E','T','W','E','E','N'] .leaf)))) 9442839900799290259786944401874907824231 ['F','O','R','E','I','G','N'] (.node (.node (.node (.node (.node .leaf 9442839981928773931953279020591459860582 ['E','X','P','L','A','I','N'] .leaf) 9442840225317805232771910931246154252401 ['P','O','L','Y','G','O','N'] .leaf) 9442840225317843918342798397944920801396 ['S','E','S','S','I','O','N'] (.node (.node .leaf 9783122024331294136598713343799126392951 ['V','A','R','C','H','A','R'] .leaf) 9783122186590551623017409654180171219050 ['I','N','T','E','G','E','R'] .leaf)) 9783122186590551623035856349875377537141 ['T','R','I','G','G','E','R'] (.node (.node (.node .leaf 9868192616061625466548572866084293574772 ['U','N','U','S','E','D'] .leaf) 9953263370051252968626366719613814702180 ['C','H','A','R','S','E','T'] .leaf) 9953263532310510454906712471432255766634 ['I','N','H','E','R','I','T'] (.node .leaf 9953263654005026105219183020372618379365 ['D','E','F','A','U','L','T'] .leaf))) 9953263735134355034926723866321502601316 ['C','O','M','M','E','N','T','_','K','E','Y','W','O','R','D'] (.node (.node (.node (.node .leaf 9953263735134432406289859671428975034485 ['T','I','N','Y','I','N','T'] .leaf) 9953263897393631864223097610629252382820 ['C','O','N','V','E','R','T'] .leaf) 9953263937958625156724559071471179137122 ['A','G','A','I','N','S','T'] (.node (.node .leaf 9953264019088282914135131312853012709496 ['W','I','T','H','O','U','T'] .leaf) 10378616856044727572216850163329862205553 ['P','R','I','M','A','R','Y'] .leaf)) 10378616856044727572226073535366683426912 ['U','N','D','E','R','S','C','O','R','E','_','B','I','N','A','R','Y'] (.node (.node (.node .leaf 17662199725146948881581801368079683532055642221 ['L','O','N','G','B','L','O','B'] .leaf) 17662199725146948881581801534100380195429023861 ['T','I','N','Y','B','L','O','B'] .leaf) 17840605176311400096526547754057182647167221876 ['U','N','U','S','E','D'] (.node .leaf 18019010797617197031178669514198046696842199142 ['E','X','T','E','N','D','E','D'] .leaf))))

/-- A part of `keywordTree`. -/
def keywordTreeRLR : WordTree Str :=
  .node (.node (.node (.node (.node (.node .leaf 18019010797617805503486121941988128672347848806 ['U','N','U','S','E','D'] .leaf) 18197416503993869649780515413561105282962030693 ['D','E','S','C','R','I','B','E'] .leaf) 18197416589064664203859711391649841612371001460 ['U','N','U','S','E','D'] (.node (.node .leaf 18197416929346503782457964792287549774215774317 ['L','A','N','G','U','A','G','E'] .leaf) 18197417439770378682399975527175385337783386230 ['U','T','C','_','T','I','M','E'] .leaf)) 18197417439770378682399975582515692325662883941 ['D','A','T','E','T','I','M','E'] (.node (.node (.node .leaf 18197417950193604544905841677908318967560142949 ['D','A','T','A','B','A','S','E'] .leaf) 18197418035264196275159800476769645769491742837 ['T','R','U','N','C','A','T','E'] .leaf) 18197418035264196275179143151532820118632398966 ['U','T','C','_','D','A','T','E'] (.node (.node .leaf 18197418035264196275488628345821645506865004660 ['U','N','U','S','E','D'] .leaf) 18197418120335234218367011126921901841865244782 ['M','I','N','V','A','L','U','E'] .leaf))) 18197418120335234218367011126921945822313578606 ['M','A','X','V','A','L','U','E'] (.node (.node (.node (.node .leaf 18197418120335315348160168220067526091535810660 ['U','N','U','S','E','D'] .leaf) 18197418545688071175314582183579816158793039984 ['O','P','T','I','M','I','Z','E'] .leaf) 18554229448017460382744420472704450017909276789 ['U','N','U','S','E','D'] (.node (.node .leaf 18554229448017460382899163060625470883968843892 ['U','N','U','S','E','D'] .leaf) 19267852358593606771945702402954067813834162291 ['R','O','L','L','B','A','C','K'] .leaf)) 19446258150041195639355165398778058628248109171 ['U','N','U','S','E','D'] (.node (.node (.node .leaf 19446258150041520158121594732863532769663254634 ['I','N','T','E','R','V','A','L'] .leaf) 19446259085817501847820560648580383349384675451 ['Z','E','R','O','F','I','L','L'] .leaf) 20516693919570422161156264886375025513229975663 ['N','V','A','R','C','H','A','R'] (.node .leaf 20516695620982540719679747216959205120397017189 ['U','N','U','S','E','D'] .leaf)))) 20695100221441074632104249755602834794366369902 ['U','N','U','S','E','D'] (.node (.node (.node (.node (.node .leaf 20695100221441683104373016446484902941288300663 ['V','I','N','D','E','X','E','S'] .leaf) 20873506012888136156999417628919885148152922227 ['R','E','S','T','R','I','C','T'] .leaf) 20873506012888338980921368827599618019516481637 ['D','I','S','T','I','N','C','T'] (.node (.node .leaf 20873506948664645189464135200729995725085081716 ['S','M','A','L','L','I','N','T'] .leaf) 20873507799370400232688207104596992251192672365 ['L','O','N','G','T','E','X','T'] .leaf)) 20873507799370400232688207150713843639386112103 ['F','U','L','L','T','E','X','T'] (.node (.node (.node .leaf 20873507799370400232688207270617688914566054005 ['T','I','N','Y','T','E','X','T'] .leaf) 21765537096888683248939908049186459598542864488 ['G','E','O','M','E','T','R','Y'] .leaf) 21765537267029420496688001650055275533215727722 ['I','D','E','N','T','I','T','Y'] (.node .leaf 19081383574409708270445991575919373620320180943978597 ['D','A','T','E','T','I','M','E','2'] .leaf))) 37788604532245690976249549330938041253996743230488676 ['C','L','U','S','T','E','R','E','D'] (.node (.node (.node (.node .leaf 37788604532245861117270750484654804223001445206589544 ['G','E','N','E','R','A','T','E','D'] .leaf) 37788604532245861118041481875508323461576736410435684 ['C','O','M','M','I','T','T','E','D'] .leaf) 38162749486619010829006434920075439829760435940229236 ['S','Q','L','_','C','A','C','H','E'] (.node (.node .leaf 38162750378649329194552473728223465744927131825078381 ['L','O','C','A','L','T','I','M','E'] .leaf) 38162751270680157982229124962326059971075958034661489 ['P','R','O','C','E','D','U','R','E'] .leaf)) 38162751627490379746843925792744267585253685713698917 ['D','U','P','L','I','C','A','T','E'] (.node (.node (.node .leaf 38162751984302983488757339860766908054852001746387060 ['U','N','U','S','E','D'] .leaf) 38911039395368713076836616011188013081846872044208244 ['S','U','B','S','T','R','I','N','G'] .leaf) 40781759171874768164952525587207958284087857355161699 ['B','I','G','S','E','R','I','A','L'] (.node .leaf 41530050507871652694543168970137549948990959420178545 ['P','R','E','C','I','S','I','O','N'] .leaf))))

/-- A part of `keywordTree`. -/
def keywordTreeRL : WordTree Str :=
  .node keywordTreeRLL 18019010797617602679235342892703170923652448374 ['U','N','S','I','G','N','E','D'] keywordTreeRLR

/-- A part of `keywordTree`. -/
def keywordTreeRRL : WordTree Str :=
  .node (.node (.node (.node (.node (.node .leaf 41530050507871652694583733634602431389558631720550506 ['I','S','O','L','A','T','I','O','N'] .leaf) 41530050507871652694583733789344862513250473189834852 ['U','N','U','S','E','D'] .leaf) 41530050507871652694583733789345010087220655022932081 ['P','A','R','T','I','T','I','O','N'] (.node (.node .leaf 42278338989372471247480208475625320669433969768398965 ['T','I','M','E','S','T','A','M','P'] .leaf) 43026626400439817176193886234696866215744265439412324 ['C','H','A','R','A','C','T','E','R'] .leaf)) 43026628184499433058562608247967387483837876592967796 ['S','E','P','A','R','A','T','O','R'] (.node (.node (.node .leaf 43400770819595847758479622855737921568439861214445687 ['V','A','R','I','A','B','L','E','S'] .leaf) 43400770819596443252581169698184418460021540356358245 ['D','A','T','A','B','A','S','E','S'] .leaf) 43774916844405617706048733809825616961536270513733738 ['I','N','C','R','E','M','E','N','T'] (.node (.node .leaf 43774916844405957988091136330030216278994895897624686 ['U','N','U','S','E','D'] .leaf) 43774916844405957988415655057774007147144837341380718 ['M','E','D','I','U','M','I','N','T'] .leaf))) 45271492915378722929533275549917889851449918527373425 ['P','A','D','_','I','N','D','E','X'] (.node (.node (.node (.node .leaf 45645639653812679512003034882960388799133543269662839 ['V','A','R','B','I','N','A','R','Y'] .leaf) 77679175879604566262351476595051436913878262673696423411822 ['M','E','D','I','U','M','B','L','O','B'] .leaf) 79248447572008472133806588758135592527905795447716591960181 ['U','N','U','S','E','D'] (.node (.node .leaf 79248450939307352514569111892877075471494597636128596033637 ['U','N','U','S','E','D'] .leaf) 80033087907939530018955503690696150415307847167390573920371 ['R','E','P','E','A','T','A','B','L','E'] .leaf)) 80033087907939530019636068383973556305567304490387314311266 ['U','N','U','S','E','D'] (.node (.node (.node .leaf 80033090901096132115821998067847021224472653250112136413299 ['U','N','U','S','E','D'] .leaf) 80033090901098272987020774072840472087054157937165874495589 ['U','N','U','S','E','D'] .leaf) 80033091649384970429329362617604806790076188337995966840945 ['P','E','R','M','I','S','S','I','V','E'] (.node .leaf 80033091649384970429414432803687042761048985166439115653218 ['U','N','U','S','E','D'] .leaf)))) 80033093145962647055748597169360117995180536123136678035571 ['R','E','O','R','G','A','N','I','Z','E'] (.node (.node (.node (.node (.node .leaf 81602364090076287366173780493044038962108916858023846084724 ['U','N','U','S','E','D'] .leaf) 81602364090076287366514062941094964010649001486579625099373 ['L','I','N','E','S','T','R','I','N','G'] .leaf) 82387004051867029431813148145636661638740130250243503554682 ['U','N','U','S','E','D'] (.node (.node .leaf 90233379350379355037800831506299942018109139175177801695335 ['F','I','L','L','F','A','C','T','O','R'] .leaf) 91018013325855465665757611089312569426182769049554328223859 ['R','E','F','E','R','E','N','C','E','S'] .leaf)) 91802654410079643606301020613263814395431546349042435883108 ['C','O','N','S','T','R','A','I','N','T'] (.node (.node (.node .leaf 91802654410079643607492008816357247832011646967770645528686 ['M','U','L','T','I','P','O','I','N','T'] .leaf) 91802658151523121551182479274806838013786557136207702130798 ['M','E','D','I','U','M','T','E','X','T'] .leaf) 95725839627397438704296994767803446598945979701595838873716 ['S','M','A','L','L','M','O','N','E','Y'] (.node .leaf 95725842246408015988160859455177994868625989742778885603440 ['U','N','U','S','E','D'] .leaf))) 166196040322532711355746468072125432466699873768687304593016619126 ['U','N','C','O','M','M','I','T','T','E','D'] (.node (.node (.node (.node .leaf 166196047384268048073940295405476747788049654799066443363873980526 ['U','N','U','S','E','D'] .leaf) 166196047384270292940633642144370944579195838357238841132103762025 ['U','N','U','S','E','D'] .leaf) 167841556649420045391276590388405541718309801361679771733143322729 ['U','N','U','S','E','D'] (.node (.node .leaf 167841558218690989505987336072693933070897004502103650997710618739 ['R','E','S','T','R','I','C','T','I','V','E'] .leaf) 167841558218690989505987336583117889100419401339768124270404698218 ['U','N','U','S','E','D'] .leaf)) 179360073642547376410678303528613249823932489613119017339444002932 ['S','M','A','L','L','S','E','R','I','A','L'] (.node (.node (.node .leaf 182651093742117825422036390189252915459474952259700968688782934131 ['R','E','P','L','I','C','A','T','I','O','N'] .leaf) 182651093742117825422036390359394017790499197534291595386654031989 ['T','R','A','N','S','A','C','T','I','O','N'] .leaf) 192524124224595929366879341041057070393399320638404285722613776497 ['P','R','O','C','E','S','S','L','I','S','T'] (.node .leaf 197460634758012047101203523402734240967654665508704094771897958501 ['U','N','U','S','E','D'] .leaf))))

/-- A part of `keywordTree`. -/
def keywordTreeRRR : WordTree Str :=
  .node (.node (.node (.node (.node (.node .leaf 351989236464375735694165479675402431982341599331311848043366314242211956 ['S','Q','L','_','N','O','_','C','A','C','H','E'] .leaf) 351989243046393180341272729063521649973495983983605730118432511108317300 ['S','E','R','I','A','L','I','Z','A','B','L','E'] .leaf) 351989244691903230133605973711176673534710082425633005456137476359848036 ['C','U','R','R','E','N','T','_','T','I','M','E'] (.node (.node .leaf 351989256210428854274326571408689737293778116563562067287241356069568612 ['C','U','R','R','E','N','T','_','D','A','T','E'] .leaf) 383047106543468312545911337146231325267693282697565541618747088239067246 ['M','U','L','T','I','P','O','L','Y','G','O','N'] .leaf)) 383047106543469881819474462434261724126283663851724166156585419929550964 ['U','N','U','S','E','D'] (.node (.node (.node .leaf 396850582782013282559826927346335384400677403783049089393392475799814244 ['C','U','R','R','E','N','T','_','U','S','E','R'] .leaf) 396850582782014067190809251493421816262051892235867588268217583846555767 ['U','N','U','S','E','D'] .leaf) 403752322546773062856347733147604969226710950323979870898591108821942376 ['G','R','O','U','P','_','C','O','N','C','A','T'] (.node (.node .leaf 421006719678340769255647541434912233302127409417534590527097362716819565 ['U','N','U','S','E','D'] .leaf) 723700923525975125421423986275727360917399911468701704223338535325733448843365 ['U','N','U','S','E','D'] .leaf))) 730937946357665027076465830428099089879321197781667954986183875543678637310062 ['U','N','U','S','E','D'] (.node (.node (.node (.node .leaf 738174948484114242881152037225208098195825283406883026440067007367889855447156 ['S','M','A','L','L','D','A','T','E','T','I','M','E'] .leaf) 803307984876621782245280689245236385729867964106054351618774056616230324797556 ['S','T','R','A','I','G','H','T','_','J','O','I','N'] .leaf) 817782009834755963198398525008362987197041021531287574668526487284524035080310 ['U','T','C','_','T','I','M','E','S','T','A','M','P'] (.node (.node .leaf 839492995508922162845347381006677744293356712594211555610205339822961150918775 ['V','I','T','E','S','S','_','S','H','A','R','D','S'] .leaf) 846730035594964767462309980545598620589939040208287240959560736729560994807906 ['A','U','T','O','I','N','C','R','E','M','E','N','T'] .leaf)) 882915084186871700926019752815309059894023100914801501592944937800566384361577 ['U','N','U','S','E','D'] (.node (.node (.node .leaf 1532887939894786826259352662512462153978419431597704406602776277811299651449155223661 ['L','A','S','T','_','I','N','S','E','R','T','_','I','D'] .leaf) 1548065163644429658004457029557194058224915375928404133299862478303452014336502923372 ['K','E','Y','_','B','L','O','C','K','_','S','I','Z','E'] .leaf) 1715013177488978137733447863518338455326248972386382799791501116413747173244568338541 ['L','O','C','A','L','T','I','M','E','S','T','A','M','P'] (.node .leaf 1760544414517496073828149979040330503391537266761203112167116111142929334901900574826 ['U','N','U','S','E','D'] .leaf)))) 1760544421754512003750313292119598065298937482289510411355125557755450422729044394103 ['V','S','C','H','E','M','A','_','T','A','B','L','E','S'] (.node (.node (.node (.node (.node .leaf 1760544530309571507638487781101983157903000459957502701356005889176601328023897112695 ['V','I','T','E','S','S','_','T','A','B','L','E','T','S'] .leaf) 1775721522475049668235667377392384366466869262670927729469066933066605015669453881445 ['D','A','T','E','T','I','M','E','O','F','F','S','E','T'] .leaf) 1775721573134095611329241224229016826580557763249258510597005080698116071969670561908 ['U','N','U','S','E','D'] (.node (.node .leaf 1775721587608051552013118300321163238367431838050890003952515233097934089732386455650 ['A','U','T','O','_','I','N','C','R','E','M','E','N','T'] .leaf) 1851607026077589603071553171817659306538741875350733119948951672439688073627819835498 ['I','G','N','O','R','E','_','D','U','P','_','K','E','Y'] .leaf)) 3214699084811851376861568238540971284976532623325238526556385422314117512807477501266755685 ['U','N','U','S','E','D'] (.node (.node (.node .leaf 3310185146202486990173700758895374635376551802699309293914436484785454600372105231718154350 ['M','U','L','T','I','L','I','N','E','S','T','R','I','N','G'] .leaf) 3692129346233857547764692599539722763279695156102966014139030246576439748412587131988344930 ['A','L','L','O','W','_','R','O','W','_','L','O','C','K','S'] .leaf) 3692129482827879824475505199950270641900651864030485020908490352280753944663211418199261296 ['U','N','U','S','E','D'] (.node .leaf 6741712615111343738687991554592675012231105344071770626444776801176896170219162493220282188169321 ['U','N','U','S','E','D'] .leaf))) 7742956251740904042550431962564019316756555316236639610650379236737202369205359790735496713338999 ['V','I','T','E','S','S','_','K','E','Y','S','P','A','C','E','S'] (.node (.node (.node (.node .leaf 7742956442713026824009820614509928672443415774113868964611475055906021217803062667361824710590562 ['A','L','L','O','W','_','P','A','G','E','_','L','O','C','K','S'] .leaf) 7809706069414515582152927382076037206422731882927466054247493037327560715411826097153687628546164 ['U','N','U','S','E','D'] .leaf) 15818204584089297428304828145014430668204321504651265671766738797598113386274017643919508002536178057316 ['C','U','R','R','E','N','T','_','T','I','M','E','S','T','A','M','P'] (.node (.node .leaf 29650365645756269318429996723097331485377533385440340293011199089740045682563479002748014192839706068236894324 ['U','N','U','S','E','D'] .leaf) 29650365645756269318429996723097331485377533385440340293011199089740045682563519567683278430203838963159924846 ['U','N','U','S','E','D'] .leaf)) 30531069254280302916566813140554020521867622273133143890211523508665899138233386994896163534888535847686111343 ['U','N','U','S','E','D'] (.node (.node (.node .leaf 32586044014207206742376463109143241346104601034960045082804867465794644557721053182666030353582379539814678632 ['G','E','O','M','E','T','R','Y','C','O','L','L','E','C','T','I','O','N'] .leaf) 71416171459119413400625629619089421956038735722751190005752073701599402718837909872635923608145341068195264794198132 ['U','N','U','S','E','D'] .leaf) 579199925222388129007285309424805405424394367064753910998913773938423465890417699943540239794212600844750361381139388961889035279663220 ['S','T','A','T','I','S','T','I','C','S','_','N','O','R','E','C','O','M','P','U','T','E'] (.node .leaf 618948866511283124575724131838348702877723503351019763070983035106887489833389191629525617578323330916261952774870336156446292613005428 ['S','T','A','T','I','S','T','I','C','S','_','I','N','C','R','E','M','E','N','T','A','L'] .leaf))))

/-- A part of `keywordTree`. -/
def keywordTreeRR : WordTree Str :=
  .node keywordTreeRRL 348538358354478551404080406015318456689716358357983956257762007660363887 ['N','O','N','C','L','U','S','T','E','R','E','D'] keywordTreeRRR

/-- A part of `keywordTree`. -/
def keywordTreeR : WordTree Str :=
  .node keywordTreeRL 41530050507871652694543169066851597071465598211326054 ['E','X','P','A','N','S','I','O','N'] keywordTreeRR

/-- `keywords`, /repo/sqlparser/token.go:94-455, as a search tree (`keywordTree_eq`). -/
def keywordTree : WordTree Str :=
  .node keywordTreeL 4948910167715419565308605926211683 ['B','I','N','A','R','Y'] keywordTreeR

/-- `keywords[word]`, /repo/sqlparser/token.go:94-455: the name of the token code, if the word is a keyword. -/
def keywordCode (word : Str) : Option Str := keywordTree.find (wordKey word)

/-- The tree holds the entries of the table. -/
theorem keywordTree_eq (word : Str) : keywordCode word = (keywordWords.find? fun p => decide (p.1 = word)).map fun p => p.2 :=
  WordTree.find_eq (by decide +kernel) (by decide +kernel) word

end Sqldef
