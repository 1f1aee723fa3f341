/-
The grammar of /repo/sqlparser/parser.y, rule by rule, in the order in which goyacc numbers the
rules (tools/yacc.py copies it).  A terminal has the name `yyToknames` gives it
(parser.go 403); `$end` is the end of the text.  `$$...` stands for the one action in the middle
of a rule.
-/
namespace Sqldef.Spec

/-- The names of the terminals, in the order of `yyToknames` (parser.go 403-719): the first one is
token 1. -/
def terminals : List String :=
  ["$end", "error", "$unk", "LEX_ERROR", "UNION", "SELECT",
   "STREAM", "INSERT", "UPDATE", "DELETE", "FROM", "WHERE",
   "GROUP", "HAVING", "ORDER", "BY", "LIMIT", "OFFSET",
   "FOR", "ALL", "DISTINCT", "AS", "EXISTS", "ASC",
   "DESC", "INTO", "DUPLICATE", "DEFAULT", "SET", "LOCK",
   "KEYS", "VALUES", "LAST_INSERT_ID", "NEXT", "VALUE", "SHARE",
   "MODE", "SQL_NO_CACHE", "SQL_CACHE", "JOIN", "STRAIGHT_JOIN", "LEFT",
   "RIGHT", "INNER", "OUTER", "CROSS", "NATURAL", "USE",
   "FORCE", "ON", "USING", "'('", "','", "')'",
   "ID", "HEX", "STRING", "INTEGRAL", "FLOAT", "HEXNUM",
   "VALUE_ARG", "LIST_ARG", "COMMENT", "COMMENT_KEYWORD", "BIT_LITERAL", "NULL",
   "TRUE", "FALSE", "OFF", "OR", "AND", "NOT",
   "'!'", "BETWEEN", "CASE", "WHEN", "THEN", "ELSE",
   "END", "'='", "'<'", "'>'", "LE", "GE",
   "NE", "NULL_SAFE_EQUAL", "IS", "LIKE", "REGEXP", "IN",
   "'|'", "'&'", "SHIFT_LEFT", "SHIFT_RIGHT", "'+'", "'-'",
   "'*'", "'/'", "DIV", "'%'", "MOD", "'^'",
   "'~'", "UNARY", "COLLATE", "BINARY", "UNDERSCORE_BINARY", "INTERVAL",
   "'.'", "JSON_EXTRACT_OP", "JSON_UNQUOTE_EXTRACT_OP", "CREATE", "ALTER", "DROP",
   "RENAME", "ANALYZE", "ADD", "SCHEMA", "TABLE", "INDEX",
   "VIEW", "TO", "IGNORE", "IF", "PRIMARY", "COLUMN",
   "CONSTRAINT", "REFERENCES", "SPATIAL", "FULLTEXT", "FOREIGN", "KEY_BLOCK_SIZE",
   "POLICY", "UNIQUE", "KEY", "SHOW", "DESCRIBE", "EXPLAIN",
   "DATE", "ESCAPE", "REPAIR", "OPTIMIZE", "TRUNCATE", "MAXVALUE",
   "PARTITION", "REORGANIZE", "LESS", "THAN", "PROCEDURE", "TRIGGER",
   "VINDEX", "VINDEXES", "STATUS", "VARIABLES", "RESTRICT", "CASCADE",
   "NO", "ACTION", "PERMISSIVE", "RESTRICTIVE", "PUBLIC", "CURRENT_USER",
   "SESSION_USER", "PAD_INDEX", "FILLFACTOR", "IGNORE_DUP_KEY", "STATISTICS_NORECOMPUTE", "STATISTICS_INCREMENTAL",
   "ALLOW_ROW_LOCKS", "ALLOW_PAGE_LOCKS", "BEFORE", "AFTER", "EACH", "ROW",
   "BEGIN", "START", "TRANSACTION", "COMMIT", "ROLLBACK", "BIT",
   "TINYINT", "SMALLINT", "SMALLSERIAL", "MEDIUMINT", "INT", "INTEGER",
   "SERIAL", "BIGINT", "BIGSERIAL", "INTNUM", "REAL", "DOUBLE",
   "PRECISION", "FLOAT_TYPE", "DECIMAL", "NUMERIC", "SMALLMONEY", "MONEY",
   "TIME", "TIMESTAMP", "DATETIME", "YEAR", "DATETIMEOFFSET", "DATETIME2",
   "SMALLDATETIME", "CHAR", "VARCHAR", "VARYING", "BOOL", "CHARACTER",
   "VARBINARY", "NCHAR", "NVARCHAR", "NTEXT", "UUID", "TEXT",
   "TINYTEXT", "MEDIUMTEXT", "LONGTEXT", "CITEXT", "BLOB", "TINYBLOB",
   "MEDIUMBLOB", "LONGBLOB", "JSON", "JSONB", "ENUM", "GEOMETRY",
   "POINT", "LINESTRING", "POLYGON", "GEOMETRYCOLLECTION", "MULTIPOINT", "MULTILINESTRING",
   "MULTIPOLYGON", "ARRAY", "NOW", "GETDATE", "BPCHAR", "NULLX",
   "AUTO_INCREMENT", "APPROXNUM", "SIGNED", "UNSIGNED", "ZEROFILL", "ZONE",
   "AUTOINCREMENT", "DATABASES", "TABLES", "VITESS_KEYSPACES", "VITESS_SHARDS", "VITESS_TABLETS",
   "VSCHEMA_TABLES", "EXTENDED", "FULL", "PROCESSLIST", "NAMES", "CHARSET",
   "GLOBAL", "SESSION", "ISOLATION", "LEVEL", "READ", "WRITE",
   "ONLY", "REPEATABLE", "COMMITTED", "UNCOMMITTED", "SERIALIZABLE", "CURRENT_TIMESTAMP",
   "DATABASE", "CURRENT_DATE", "CURRENT_TIME", "LOCALTIME", "LOCALTIMESTAMP", "UTC_DATE",
   "UTC_TIME", "UTC_TIMESTAMP", "REPLACE", "CONVERT", "CAST", "SUBSTR",
   "SUBSTRING", "GROUP_CONCAT", "SEPARATOR", "INHERIT", "MATCH", "AGAINST",
   "BOOLEAN", "LANGUAGE", "WITH", "WITHOUT", "PARSER", "QUERY",
   "EXPANSION", "UNUSED", "GENERATED", "ALWAYS", "IDENTITY", "SEQUENCE",
   "INCREMENT", "MINVALUE", "CACHE", "CYCLE", "OWNED", "NONE",
   "CLUSTERED", "NONCLUSTERED", "REPLICATION", "INCLUDE", "TYPECAST", "CHECK",
   "';'", "'['", "']'"]

/-- Rules 0 to 99 of parser.y. -/
def grammar0 : List (String × List String) := [
  ("$accept", ["any_command", "$end"]),  -- 0, parser.y 0
  ("any_command", ["command", "semicolon_opt"]),  -- 1, parser.y 348
  ("semicolon_opt", []),  -- 2, parser.y 353
  ("semicolon_opt", ["';'"]),  -- 3, parser.y 355
  ("command", ["select_statement"]),  -- 4, parser.y 358
  ("command", ["stream_statement"]),  -- 5, parser.y 362
  ("command", ["insert_statement"]),  -- 6, parser.y 363
  ("command", ["update_statement"]),  -- 7, parser.y 364
  ("command", ["delete_statement"]),  -- 8, parser.y 365
  ("command", ["set_statement"]),  -- 9, parser.y 366
  ("command", ["create_statement"]),  -- 10, parser.y 367
  ("command", ["alter_statement"]),  -- 11, parser.y 368
  ("command", ["rename_statement"]),  -- 12, parser.y 369
  ("command", ["drop_statement"]),  -- 13, parser.y 370
  ("command", ["truncate_statement"]),  -- 14, parser.y 371
  ("command", ["analyze_statement"]),  -- 15, parser.y 372
  ("command", ["show_statement"]),  -- 16, parser.y 373
  ("command", ["use_statement"]),  -- 17, parser.y 374
  ("command", ["begin_statement"]),  -- 18, parser.y 375
  ("command", ["commit_statement"]),  -- 19, parser.y 376
  ("command", ["rollback_statement"]),  -- 20, parser.y 377
  ("command", ["other_statement"]),  -- 21, parser.y 378
  ("select_statement", ["base_select", "order_by_opt", "limit_opt", "lock_opt"]),  -- 22, parser.y 381
  ("select_statement", ["union_lhs", "union_op", "union_rhs", "order_by_opt", "limit_opt", "lock_opt"]),  -- 23, parser.y 389
  ("select_statement", ["SELECT", "comment_opt", "cache_opt", "NEXT", "num_val", "for_from", "table_name"]),  -- 24, parser.y 393
  ("stream_statement", ["STREAM", "comment_opt", "select_expression", "FROM", "table_name"]),  -- 25, parser.y 399
  ("base_select", ["SELECT", "comment_opt", "cache_opt", "distinct_opt", "straight_join_opt", "select_expression_list", "from_opt", "where_expression_opt", "group_by_opt", "having_opt"]),  -- 26, parser.y 406
  ("union_lhs", ["select_statement"]),  -- 27, parser.y 412
  ("union_lhs", ["openb", "select_statement", "closeb"]),  -- 28, parser.y 416
  ("union_rhs", ["base_select"]),  -- 29, parser.y 422
  ("union_rhs", ["openb", "select_statement", "closeb"]),  -- 30, parser.y 426
  ("insert_statement", ["insert_or_replace", "comment_opt", "ignore_opt", "into_table_name", "opt_partition_clause", "insert_data", "on_dup_opt"]),  -- 31, parser.y 433
  ("insert_statement", ["insert_or_replace", "comment_opt", "ignore_opt", "into_table_name", "opt_partition_clause", "SET", "update_list", "on_dup_opt"]),  -- 32, parser.y 445
  ("insert_or_replace", ["INSERT"]),  -- 33, parser.y 457
  ("insert_or_replace", ["REPLACE"]),  -- 34, parser.y 461
  ("update_statement", ["UPDATE", "comment_opt", "table_references", "SET", "update_list", "where_expression_opt", "order_by_opt", "limit_opt"]),  -- 35, parser.y 467
  ("delete_statement", ["DELETE", "comment_opt", "FROM", "table_name", "opt_partition_clause", "where_expression_opt", "order_by_opt", "limit_opt"]),  -- 36, parser.y 473
  ("delete_statement", ["DELETE", "comment_opt", "FROM", "table_name_list", "USING", "table_references", "where_expression_opt"]),  -- 37, parser.y 477
  ("delete_statement", ["DELETE", "comment_opt", "table_name_list", "from_or_using", "table_references", "where_expression_opt"]),  -- 38, parser.y 481
  ("from_or_using", ["FROM"]),  -- 39, parser.y 487
  ("from_or_using", ["USING"]),  -- 40, parser.y 488
  ("table_name_list", ["table_name"]),  -- 41, parser.y 491
  ("table_name_list", ["table_name_list", "','", "table_name"]),  -- 42, parser.y 495
  ("opt_partition_clause", []),  -- 43, parser.y 500
  ("opt_partition_clause", ["PARTITION", "openb", "partition_list", "closeb"]),  -- 44, parser.y 504
  ("set_statement", ["SET", "comment_opt", "set_list"]),  -- 45, parser.y 510
  ("set_statement", ["SET", "comment_opt", "set_session_or_global", "set_list"]),  -- 46, parser.y 514
  ("set_statement", ["SET", "comment_opt", "set_session_or_global", "TRANSACTION", "transaction_chars"]),  -- 47, parser.y 518
  ("set_statement", ["SET", "comment_opt", "TRANSACTION", "transaction_chars"]),  -- 48, parser.y 522
  ("transaction_chars", ["transaction_char"]),  -- 49, parser.y 528
  ("transaction_chars", ["transaction_chars", "','", "transaction_char"]),  -- 50, parser.y 532
  ("transaction_char", ["ISOLATION", "LEVEL", "isolation_level"]),  -- 51, parser.y 538
  ("transaction_char", ["READ", "WRITE"]),  -- 52, parser.y 542
  ("transaction_char", ["READ", "ONLY"]),  -- 53, parser.y 546
  ("isolation_level", ["REPEATABLE", "READ"]),  -- 54, parser.y 552
  ("isolation_level", ["READ", "COMMITTED"]),  -- 55, parser.y 556
  ("isolation_level", ["READ", "UNCOMMITTED"]),  -- 56, parser.y 560
  ("isolation_level", ["SERIALIZABLE"]),  -- 57, parser.y 564
  ("set_session_or_global", ["SESSION"]),  -- 58, parser.y 570
  ("set_session_or_global", ["GLOBAL"]),  -- 59, parser.y 574
  ("create_statement", ["create_table_prefix", "table_spec"]),  -- 60, parser.y 580
  ("create_statement", ["CREATE", "unique_opt", "clustered_opt", "INDEX", "sql_id", "ON", "table_name", "'('", "index_column_list", "')'", "include_columns_opt", "where_expression_opt", "index_option_opt", "index_partition_opt"]),  -- 61, parser.y 585
  ("create_statement", ["CREATE", "unique_opt", "clustered_opt", "INDEX", "sql_id", "USING", "sql_id", "ON", "table_name", "'('", "index_column_list", "')'", "index_option_opt"]),  -- 62, parser.y 605
  ("create_statement", ["CREATE", "unique_opt", "clustered_opt", "INDEX", "sql_id", "ON", "table_name", "USING", "sql_id", "'('", "index_column_list", "')'", "where_expression_opt", "index_option_opt"]),  -- 63, parser.y 621
  ("create_statement", ["CREATE", "or_replace_opt", "VIEW", "table_name", "AS", "select_statement"]),  -- 64, parser.y 636
  ("create_statement", ["CREATE", "VINDEX", "sql_id", "vindex_type_opt", "vindex_params_opt"]),  -- 65, parser.y 644
  ("create_statement", ["CREATE", "DATABASE", "not_exists_opt", "ID", "ddl_force_eof"]),  -- 66, parser.y 652
  ("create_statement", ["CREATE", "SCHEMA", "not_exists_opt", "ID", "ddl_force_eof"]),  -- 67, parser.y 656
  ("create_statement", ["CREATE", "POLICY", "sql_id", "ON", "table_name", "policy_as_opt", "policy_for_opt", "TO", "sql_id_list", "using_opt", "with_check_opt"]),  -- 68, parser.y 660
  ("create_statement", ["CREATE", "TRIGGER", "sql_id", "trigger_time", "trigger_event", "ON", "table_name", "FOR", "EACH", "ROW", "trigger_statement"]),  -- 69, parser.y 671
  ("create_statement", ["CREATE", "TRIGGER", "sql_id", "ON", "table_name", "trigger_time", "trigger_event", "AS", "trigger_body"]),  -- 70, parser.y 681
  ("trigger_time", ["BEFORE"]),  -- 71, parser.y 693
  ("trigger_time", ["AFTER"]),  -- 72, parser.y 697
  ("trigger_event", ["INSERT"]),  -- 73, parser.y 703
  ("trigger_event", ["UPDATE"]),  -- 74, parser.y 707
  ("trigger_event", ["DELETE"]),  -- 75, parser.y 711
  ("trigger_body", ["trigger_statement"]),  -- 76, parser.y 717
  ("trigger_body", ["trigger_body", "trigger_statement"]),  -- 77, parser.y 721
  ("trigger_statement", ["insert_statement"]),  -- 78, parser.y 727
  ("trigger_statement", ["delete_statement"]),  -- 79, parser.y 731
  ("trigger_statement", ["update_statement"]),  -- 80, parser.y 732
  ("policy_as_opt", []),  -- 81, parser.y 734
  ("policy_as_opt", ["AS", "PERMISSIVE"]),  -- 82, parser.y 738
  ("policy_as_opt", ["AS", "RESTRICTIVE"]),  -- 83, parser.y 742
  ("policy_for_opt", []),  -- 84, parser.y 747
  ("policy_for_opt", ["FOR", "ALL"]),  -- 85, parser.y 751
  ("policy_for_opt", ["FOR", "SELECT"]),  -- 86, parser.y 755
  ("policy_for_opt", ["FOR", "INSERT"]),  -- 87, parser.y 759
  ("policy_for_opt", ["FOR", "UPDATE"]),  -- 88, parser.y 763
  ("policy_for_opt", ["FOR", "DELETE"]),  -- 89, parser.y 767
  ("using_opt", []),  -- 90, parser.y 772
  ("using_opt", ["USING", "expression"]),  -- 91, parser.y 776
  ("with_check_opt", []),  -- 92, parser.y 781
  ("with_check_opt", ["WITH", "CHECK", "expression"]),  -- 93, parser.y 785
  ("unique_opt", []),  -- 94, parser.y 790
  ("unique_opt", ["UNIQUE"]),  -- 95, parser.y 794
  ("vindex_type_opt", []),  -- 96, parser.y 799
  ("vindex_type_opt", ["USING", "vindex_type"]),  -- 97, parser.y 803
  ("vindex_type", ["ID"]),  -- 98, parser.y 809
  ("vindex_params_opt", [])  -- 99, parser.y 814
]

/-- Rules 100 to 199 of parser.y. -/
def grammar100 : List (String × List String) := [
  ("vindex_params_opt", ["WITH", "vindex_param_list"]),  -- 100, parser.y 819
  ("vindex_param_list", ["vindex_param"]),  -- 101, parser.y 825
  ("vindex_param_list", ["vindex_param_list", "','", "vindex_param"]),  -- 102, parser.y 830
  ("vindex_param", ["reserved_sql_id", "'='", "table_opt_value"]),  -- 103, parser.y 836
  ("or_replace_opt", []),  -- 104, parser.y 841
  ("or_replace_opt", ["OR", "REPLACE"]),  -- 105, parser.y 845
  ("create_table_prefix", ["CREATE", "TABLE", "not_exists_opt", "table_name"]),  -- 106, parser.y 851
  ("table_spec", ["'('", "table_column_list", "')'", "table_option_list"]),  -- 107, parser.y 858
  ("table_column_list", ["column_definition"]),  -- 108, parser.y 865
  ("table_column_list", ["table_column_list", "','", "column_definition"]),  -- 109, parser.y 870
  ("table_column_list", ["table_column_list", "','", "index_definition"]),  -- 110, parser.y 874
  ("table_column_list", ["table_column_list", "','", "foreign_key_definition"]),  -- 111, parser.y 878
  ("table_column_list", ["table_column_list", "','", "primary_key_definition"]),  -- 112, parser.y 882
  ("column_definition", ["ID", "column_definition_type"]),  -- 113, parser.y 888
  ("column_type", ["numeric_type", "unsigned_opt", "zero_fill_opt"]),  -- 114, parser.y 893
  ("column_type", ["bool_type"]),  -- 115, parser.y 899
  ("column_type", ["char_type"]),  -- 116, parser.y 900
  ("column_type", ["time_type"]),  -- 117, parser.y 901
  ("column_type", ["spatial_type"]),  -- 118, parser.y 902
  ("column_definition_type", ["column_type", "array_opt"]),  -- 119, parser.y 904
  ("column_definition_type", ["column_definition_type", "NULL"]),  -- 120, parser.y 916
  ("column_definition_type", ["column_definition_type", "NOT", "NULL"]),  -- 121, parser.y 921
  ("column_definition_type", ["column_definition_type", "default_definition"]),  -- 122, parser.y 926
  ("column_definition_type", ["column_definition_type", "CONSTRAINT", "sql_id", "default_definition"]),  -- 123, parser.y 931
  ("column_definition_type", ["column_definition_type", "ON", "UPDATE", "current_timestamp"]),  -- 124, parser.y 936
  ("column_definition_type", ["column_definition_type", "AUTO_INCREMENT"]),  -- 125, parser.y 941
  ("column_definition_type", ["column_definition_type", "AUTOINCREMENT"]),  -- 126, parser.y 946
  ("column_definition_type", ["column_definition_type", "PRIMARY", "KEY"]),  -- 127, parser.y 951
  ("column_definition_type", ["column_definition_type", "KEY"]),  -- 128, parser.y 956
  ("column_definition_type", ["column_definition_type", "UNIQUE", "KEY"]),  -- 129, parser.y 961
  ("column_definition_type", ["column_definition_type", "UNIQUE"]),  -- 130, parser.y 966
  ("column_definition_type", ["column_definition_type", "CHECK", "not_for_replication_opt", "openb", "expression", "closeb", "no_inherit_opt"]),  -- 131, parser.y 971
  ("column_definition_type", ["column_definition_type", "CONSTRAINT", "sql_id", "CHECK", "not_for_replication_opt", "openb", "expression", "closeb"]),  -- 132, parser.y 977
  ("column_definition_type", ["column_definition_type", "COMMENT_KEYWORD", "STRING"]),  -- 133, parser.y 982
  ("column_definition_type", ["column_definition_type", "REFERENCES", "table_id"]),  -- 134, parser.y 987
  ("column_definition_type", ["column_definition_type", "REFERENCES", "table_id", "'('", "column_list", "')'"]),  -- 135, parser.y 992
  ("column_definition_type", ["column_definition_type", "GENERATED", "identity_behavior", "AS", "IDENTITY"]),  -- 136, parser.y 998
  ("column_definition_type", ["column_definition_type", "GENERATED", "identity_behavior", "AS", "IDENTITY", "'('", "sequence_opt", "')'"]),  -- 137, parser.y 1004
  ("column_definition_type", ["column_definition_type", "IDENTITY", "'('", "INTEGRAL", "','", "INTEGRAL", "')'"]),  -- 138, parser.y 1010
  ("column_definition_type", ["column_definition_type", "NOT", "FOR", "REPLICATION"]),  -- 139, parser.y 1016
  ("default_definition", ["DEFAULT", "default_val"]),  -- 140, parser.y 1023
  ("default_definition", ["DEFAULT", "'('", "default_val", "')'"]),  -- 141, parser.y 1027
  ("default_definition", ["DEFAULT", "'('", "'('", "default_val", "')'", "')'"]),  -- 142, parser.y 1031
  ("default_val", ["STRING", "character_cast_opt"]),  -- 143, parser.y 1037
  ("default_val", ["INTEGRAL"]),  -- 144, parser.y 1041
  ("default_val", ["FLOAT"]),  -- 145, parser.y 1045
  ("default_val", ["NULL"]),  -- 146, parser.y 1049
  ("default_val", ["current_timestamp"]),  -- 147, parser.y 1053
  ("default_val", ["BIT_LITERAL"]),  -- 148, parser.y 1057
  ("default_val", ["boolean_value"]),  -- 149, parser.y 1061
  ("default_val", ["NOW", "openb", "closeb"]),  -- 150, parser.y 1065
  ("identity_behavior", ["ALWAYS"]),  -- 151, parser.y 1071
  ("identity_behavior", ["BY", "DEFAULT"]),  -- 152, parser.y 1075
  ("sequence_opt", []),  -- 153, parser.y 1080
  ("sequence_opt", ["sequence_opt", "START", "WITH", "INTEGRAL"]),  -- 154, parser.y 1084
  ("sequence_opt", ["sequence_opt", "START", "INTEGRAL"]),  -- 155, parser.y 1089
  ("sequence_opt", ["sequence_opt", "INCREMENT", "BY", "INTEGRAL"]),  -- 156, parser.y 1094
  ("sequence_opt", ["sequence_opt", "INCREMENT", "INTEGRAL"]),  -- 157, parser.y 1099
  ("sequence_opt", ["sequence_opt", "MINVALUE", "INTEGRAL"]),  -- 158, parser.y 1104
  ("sequence_opt", ["sequence_opt", "MAXVALUE", "INTEGRAL"]),  -- 159, parser.y 1109
  ("sequence_opt", ["sequence_opt", "CACHE", "INTEGRAL"]),  -- 160, parser.y 1114
  ("sequence_opt", ["sequence_opt", "NO", "MINVALUE"]),  -- 161, parser.y 1119
  ("sequence_opt", ["sequence_opt", "NO", "MAXVALUE"]),  -- 162, parser.y 1124
  ("sequence_opt", ["sequence_opt", "NO", "CYCLE"]),  -- 163, parser.y 1129
  ("sequence_opt", ["sequence_opt", "CYCLE"]),  -- 164, parser.y 1134
  ("sequence_opt", ["sequence_opt", "OWNED", "BY", "NONE"]),  -- 165, parser.y 1139
  ("sequence_opt", ["sequence_opt", "OWNED", "BY", "table_id", "'.'", "reserved_sql_id"]),  -- 166, parser.y 1144
  ("current_timestamp", ["CURRENT_TIMESTAMP", "length_opt"]),  -- 167, parser.y 1151
  ("current_timestamp", ["CURRENT_TIMESTAMP", "'('", "')'"]),  -- 168, parser.y 1155
  ("current_timestamp", ["CURRENT_TIME", "length_opt"]),  -- 169, parser.y 1159
  ("current_timestamp", ["CURRENT_TIME", "'('", "')'"]),  -- 170, parser.y 1163
  ("current_timestamp", ["CURRENT_DATE"]),  -- 171, parser.y 1167
  ("current_timestamp", ["GETDATE", "'('", "')'"]),  -- 172, parser.y 1171
  ("no_inherit_opt", []),  -- 173, parser.y 1176
  ("no_inherit_opt", ["NO", "INHERIT"]),  -- 174, parser.y 1180
  ("character_cast_opt", []),  -- 175, parser.y 1185
  ("character_cast_opt", ["TYPECAST", "CHARACTER", "VARYING"]),  -- 176, parser.y 1189
  ("character_cast_opt", ["TYPECAST", "TIMESTAMP", "time_zone_opt"]),  -- 177, parser.y 1190
  ("character_cast_opt", ["TYPECAST", "BPCHAR"]),  -- 178, parser.y 1191
  ("character_cast_opt", ["TYPECAST", "TEXT"]),  -- 179, parser.y 1192
  ("numeric_type", ["int_type", "length_opt"]),  -- 180, parser.y 1195
  ("numeric_type", ["decimal_type"]),  -- 181, parser.y 1200
  ("int_type", ["BIT"]),  -- 182, parser.y 1206
  ("int_type", ["TINYINT"]),  -- 183, parser.y 1210
  ("int_type", ["SMALLINT"]),  -- 184, parser.y 1214
  ("int_type", ["SMALLSERIAL"]),  -- 185, parser.y 1218
  ("int_type", ["MEDIUMINT"]),  -- 186, parser.y 1222
  ("int_type", ["INT"]),  -- 187, parser.y 1226
  ("int_type", ["INTEGER"]),  -- 188, parser.y 1230
  ("int_type", ["SERIAL"]),  -- 189, parser.y 1234
  ("int_type", ["BIGINT"]),  -- 190, parser.y 1238
  ("int_type", ["BIGSERIAL"]),  -- 191, parser.y 1242
  ("decimal_type", ["REAL", "float_length_opt"]),  -- 192, parser.y 1248
  ("decimal_type", ["DOUBLE", "PRECISION", "float_length_opt"]),  -- 193, parser.y 1254
  ("decimal_type", ["DOUBLE", "float_length_opt"]),  -- 194, parser.y 1260
  ("decimal_type", ["FLOAT_TYPE", "float_length_opt"]),  -- 195, parser.y 1266
  ("decimal_type", ["DECIMAL", "decimal_length_opt"]),  -- 196, parser.y 1272
  ("decimal_type", ["NUMERIC", "decimal_length_opt"]),  -- 197, parser.y 1278
  ("decimal_type", ["MONEY"]),  -- 198, parser.y 1284
  ("decimal_type", ["SMALLMONEY"])  -- 199, parser.y 1288
]

/-- Rules 200 to 299 of parser.y. -/
def grammar200 : List (String × List String) := [
  ("time_type", ["DATE"]),  -- 200, parser.y 1294
  ("time_type", ["TIME", "length_opt", "time_zone_opt"]),  -- 201, parser.y 1298
  ("time_type", ["TIMESTAMP", "length_opt", "time_zone_opt"]),  -- 202, parser.y 1302
  ("time_type", ["DATETIME", "length_opt"]),  -- 203, parser.y 1306
  ("time_type", ["DATETIME2"]),  -- 204, parser.y 1310
  ("time_type", ["DATETIMEOFFSET", "length_opt"]),  -- 205, parser.y 1314
  ("time_type", ["SMALLDATETIME"]),  -- 206, parser.y 1318
  ("time_type", ["YEAR"]),  -- 207, parser.y 1322
  ("bool_type", ["BOOL"]),  -- 208, parser.y 1328
  ("bool_type", ["BOOLEAN"]),  -- 209, parser.y 1332
  ("char_type", ["CHAR", "length_opt", "charset_opt", "collate_opt"]),  -- 210, parser.y 1338
  ("char_type", ["CHARACTER", "length_opt", "charset_opt", "collate_opt"]),  -- 211, parser.y 1342
  ("char_type", ["VARCHAR", "length_opt", "charset_opt", "collate_opt"]),  -- 212, parser.y 1346
  ("char_type", ["NCHAR", "length_opt", "charset_opt", "collate_opt"]),  -- 213, parser.y 1350
  ("char_type", ["NVARCHAR", "length_opt", "charset_opt", "collate_opt"]),  -- 214, parser.y 1354
  ("char_type", ["NTEXT"]),  -- 215, parser.y 1358
  ("char_type", ["CHARACTER", "VARYING", "length_opt", "charset_opt", "collate_opt"]),  -- 216, parser.y 1362
  ("char_type", ["BINARY", "length_opt"]),  -- 217, parser.y 1366
  ("char_type", ["VARBINARY", "length_opt"]),  -- 218, parser.y 1370
  ("char_type", ["TEXT", "charset_opt", "collate_opt"]),  -- 219, parser.y 1374
  ("char_type", ["TINYTEXT", "charset_opt", "collate_opt"]),  -- 220, parser.y 1378
  ("char_type", ["MEDIUMTEXT", "charset_opt", "collate_opt"]),  -- 221, parser.y 1382
  ("char_type", ["LONGTEXT", "charset_opt", "collate_opt"]),  -- 222, parser.y 1386
  ("char_type", ["CITEXT", "charset_opt", "collate_opt"]),  -- 223, parser.y 1390
  ("char_type", ["BLOB"]),  -- 224, parser.y 1394
  ("char_type", ["TINYBLOB"]),  -- 225, parser.y 1398
  ("char_type", ["MEDIUMBLOB"]),  -- 226, parser.y 1402
  ("char_type", ["LONGBLOB"]),  -- 227, parser.y 1406
  ("char_type", ["JSON"]),  -- 228, parser.y 1410
  ("char_type", ["JSONB"]),  -- 229, parser.y 1414
  ("char_type", ["UUID"]),  -- 230, parser.y 1418
  ("char_type", ["ENUM", "'('", "enum_values", "')'", "charset_opt", "collate_opt"]),  -- 231, parser.y 1422
  ("char_type", ["SET", "'('", "enum_values", "')'", "charset_opt", "collate_opt"]),  -- 232, parser.y 1427
  ("spatial_type", ["GEOMETRY"]),  -- 233, parser.y 1433
  ("spatial_type", ["POINT"]),  -- 234, parser.y 1437
  ("spatial_type", ["LINESTRING"]),  -- 235, parser.y 1441
  ("spatial_type", ["POLYGON"]),  -- 236, parser.y 1445
  ("spatial_type", ["GEOMETRYCOLLECTION"]),  -- 237, parser.y 1449
  ("spatial_type", ["MULTIPOINT"]),  -- 238, parser.y 1453
  ("spatial_type", ["MULTILINESTRING"]),  -- 239, parser.y 1457
  ("spatial_type", ["MULTIPOLYGON"]),  -- 240, parser.y 1461
  ("enum_values", ["STRING"]),  -- 241, parser.y 1467
  ("enum_values", ["enum_values", "','", "STRING"]),  -- 242, parser.y 1472
  ("length_opt", []),  -- 243, parser.y 1477
  ("length_opt", ["'('", "INTEGRAL", "')'"]),  -- 244, parser.y 1481
  ("float_length_opt", []),  -- 245, parser.y 1486
  ("float_length_opt", ["'('", "INTEGRAL", "','", "INTEGRAL", "')'"]),  -- 246, parser.y 1490
  ("decimal_length_opt", []),  -- 247, parser.y 1498
  ("decimal_length_opt", ["'('", "INTEGRAL", "')'"]),  -- 248, parser.y 1502
  ("decimal_length_opt", ["'('", "INTEGRAL", "','", "INTEGRAL", "')'"]),  -- 249, parser.y 1508
  ("time_zone_opt", []),  -- 250, parser.y 1516
  ("time_zone_opt", ["WITH", "TIME", "ZONE"]),  -- 251, parser.y 1520
  ("time_zone_opt", ["WITHOUT", "TIME", "ZONE"]),  -- 252, parser.y 1524
  ("unsigned_opt", []),  -- 253, parser.y 1529
  ("unsigned_opt", ["UNSIGNED"]),  -- 254, parser.y 1533
  ("zero_fill_opt", []),  -- 255, parser.y 1538
  ("zero_fill_opt", ["ZEROFILL"]),  -- 256, parser.y 1542
  ("array_opt", []),  -- 257, parser.y 1547
  ("array_opt", ["'['", "']'"]),  -- 258, parser.y 1551
  ("array_opt", ["ARRAY"]),  -- 259, parser.y 1555
  ("charset_opt", []),  -- 260, parser.y 1560
  ("charset_opt", ["CHARACTER", "SET", "ID"]),  -- 261, parser.y 1564
  ("charset_opt", ["CHARACTER", "SET", "BINARY"]),  -- 262, parser.y 1568
  ("collate_opt", []),  -- 263, parser.y 1573
  ("collate_opt", ["BINARY"]),  -- 264, parser.y 1577
  ("collate_opt", ["COLLATE", "ID"]),  -- 265, parser.y 1581
  ("index_definition", ["index_info", "'('", "index_column_list", "')'", "index_option_opt", "index_partition_opt"]),  -- 266, parser.y 1587
  ("index_option_opt", []),  -- 267, parser.y 1592
  ("index_option_opt", ["index_option_list"]),  -- 268, parser.y 1596
  ("index_option_opt", ["WITH", "'('", "mssql_index_option_list", "')'"]),  -- 269, parser.y 1600
  ("index_option_list", ["index_option"]),  -- 270, parser.y 1606
  ("index_option_list", ["index_option_list", "index_option"]),  -- 271, parser.y 1610
  ("mssql_index_option_list", ["index_option"]),  -- 272, parser.y 1616
  ("mssql_index_option_list", ["mssql_index_option_list", "','", "index_option"]),  -- 273, parser.y 1620
  ("index_option", ["USING", "ID"]),  -- 274, parser.y 1626
  ("index_option", ["KEY_BLOCK_SIZE", "equal_opt", "INTEGRAL"]),  -- 275, parser.y 1630
  ("index_option", ["COMMENT_KEYWORD", "STRING"]),  -- 276, parser.y 1635
  ("index_option", ["WITH", "PARSER", "sql_id"]),  -- 277, parser.y 1639
  ("index_option", ["PAD_INDEX", "'='", "on_off"]),  -- 278, parser.y 1643
  ("index_option", ["FILLFACTOR", "'='", "INTEGRAL"]),  -- 279, parser.y 1647
  ("index_option", ["IGNORE_DUP_KEY", "'='", "on_off"]),  -- 280, parser.y 1651
  ("index_option", ["STATISTICS_NORECOMPUTE", "'='", "on_off"]),  -- 281, parser.y 1655
  ("index_option", ["STATISTICS_INCREMENTAL", "'='", "on_off"]),  -- 282, parser.y 1659
  ("index_option", ["ALLOW_ROW_LOCKS", "'='", "on_off"]),  -- 283, parser.y 1663
  ("index_option", ["ALLOW_PAGE_LOCKS", "'='", "on_off"]),  -- 284, parser.y 1667
  ("equal_opt", []),  -- 285, parser.y 1672
  ("equal_opt", ["'='"]),  -- 286, parser.y 1677
  ("on_off", ["ON"]),  -- 287, parser.y 1683
  ("on_off", ["OFF"]),  -- 288, parser.y 1687
  ("index_partition_opt", []),  -- 289, parser.y 1693
  ("index_partition_opt", ["ON", "sql_id"]),  -- 290, parser.y 1697
  ("index_partition_opt", ["ON", "sql_id", "openb", "sql_id", "closeb"]),  -- 291, parser.y 1701
  ("index_info", ["PRIMARY", "KEY"]),  -- 292, parser.y 1707
  ("index_info", ["SPATIAL", "index_or_key", "ID"]),  -- 293, parser.y 1711
  ("index_info", ["FULLTEXT", "index_or_key", "ID"]),  -- 294, parser.y 1715
  ("index_info", ["FULLTEXT", "ID"]),  -- 295, parser.y 1719
  ("index_info", ["UNIQUE", "index_or_key", "ID"]),  -- 296, parser.y 1723
  ("index_info", ["UNIQUE", "ID"]),  -- 297, parser.y 1727
  ("index_info", ["index_or_key", "ID", "clustered_opt"]),  -- 298, parser.y 1731
  ("index_info", ["index_or_key", "ID", "UNIQUE", "clustered_opt"])  -- 299, parser.y 1735
]

/-- Rules 300 to 399 of parser.y. -/
def grammar300 : List (String × List String) := [
  ("index_or_key", ["INDEX"]),  -- 300, parser.y 1741
  ("index_or_key", ["KEY"]),  -- 301, parser.y 1745
  ("index_column_list", ["index_column"]),  -- 302, parser.y 1751
  ("index_column_list", ["index_column_list", "','", "index_column"]),  -- 303, parser.y 1755
  ("index_column", ["sql_id", "length_opt", "asc_desc_opt"]),  -- 304, parser.y 1761
  ("index_column", ["KEY", "length_opt"]),  -- 305, parser.y 1766
  ("foreign_key_definition", ["foreign_key_without_options", "not_for_replication_opt"]),  -- 306, parser.y 1772
  ("foreign_key_definition", ["foreign_key_without_options", "ON", "DELETE", "reference_option", "not_for_replication_opt"]),  -- 307, parser.y 1777
  ("foreign_key_definition", ["foreign_key_without_options", "ON", "UPDATE", "reference_option", "not_for_replication_opt"]),  -- 308, parser.y 1784
  ("foreign_key_definition", ["foreign_key_without_options", "ON", "DELETE", "reference_option", "ON", "UPDATE", "reference_option", "not_for_replication_opt"]),  -- 309, parser.y 1791
  ("foreign_key_definition", ["foreign_key_without_options", "ON", "UPDATE", "reference_option", "ON", "DELETE", "reference_option", "not_for_replication_opt"]),  -- 310, parser.y 1798
  ("foreign_key_without_options", ["CONSTRAINT", "sql_id_opt", "FOREIGN", "KEY", "sql_id_opt", "'('", "sql_id_list", "')'", "REFERENCES", "table_name", "'('", "sql_id_list", "')'"]),  -- 311, parser.y 1807
  ("reference_option", ["RESTRICT"]),  -- 312, parser.y 1819
  ("reference_option", ["CASCADE"]),  -- 313, parser.y 1823
  ("reference_option", ["SET", "NULL"]),  -- 314, parser.y 1827
  ("reference_option", ["NO", "ACTION"]),  -- 315, parser.y 1831
  ("primary_key_definition", ["CONSTRAINT", "sql_id", "PRIMARY", "KEY", "clustered_opt", "'('", "index_column_list", "')'", "index_option_opt", "index_partition_opt"]),  -- 316, parser.y 1837
  ("clustered_opt", []),  -- 317, parser.y 1848
  ("clustered_opt", ["CLUSTERED"]),  -- 318, parser.y 1852
  ("clustered_opt", ["NONCLUSTERED"]),  -- 319, parser.y 1856
  ("not_for_replication_opt", []),  -- 320, parser.y 1862
  ("not_for_replication_opt", ["NOT", "FOR", "REPLICATION"]),  -- 321, parser.y 1866
  ("sql_id_opt", []),  -- 322, parser.y 1871
  ("sql_id_opt", ["sql_id"]),  -- 323, parser.y 1875
  ("sql_id_list", ["sql_id"]),  -- 324, parser.y 1878
  ("sql_id_list", ["sql_id_list", "','", "sql_id"]),  -- 325, parser.y 1882
  ("table_option_list", []),  -- 326, parser.y 1887
  ("table_option_list", ["table_option"]),  -- 327, parser.y 1891
  ("table_option_list", ["table_option_list", "','", "table_option"]),  -- 328, parser.y 1895
  ("table_option", ["table_opt_value"]),  -- 329, parser.y 1903
  ("table_option", ["table_option", "table_opt_value"]),  -- 330, parser.y 1907
  ("table_option", ["table_option", "'='", "table_opt_value"]),  -- 331, parser.y 1911
  ("table_opt_value", ["reserved_sql_id"]),  -- 332, parser.y 1917
  ("table_opt_value", ["STRING"]),  -- 333, parser.y 1921
  ("table_opt_value", ["INTEGRAL"]),  -- 334, parser.y 1925
  ("alter_statement", ["ALTER", "ignore_opt", "TABLE", "table_name", "non_add_drop_or_rename_operation", "force_eof"]),  -- 335, parser.y 1931
  ("alter_statement", ["ALTER", "ignore_opt", "TABLE", "table_name", "ADD", "unique_opt", "alter_object_type_index", "sql_id", "'('", "index_column_list", "')'"]),  -- 336, parser.y 1935
  ("alter_statement", ["ALTER", "ignore_opt", "TABLE", "ONLY", "table_name", "ADD", "CONSTRAINT", "sql_id", "PRIMARY", "KEY", "'('", "index_column_list", "')'"]),  -- 337, parser.y 1949
  ("alter_statement", ["ALTER", "ignore_opt", "TABLE", "ONLY", "table_name", "ADD", "foreign_key_definition"]),  -- 338, parser.y 1963
  ("alter_statement", ["ALTER", "ignore_opt", "TABLE", "table_name", "ADD", "alter_object_type_rest", "force_eof"]),  -- 339, parser.y 1972
  ("alter_statement", ["ALTER", "ignore_opt", "TABLE", "table_name", "DROP", "alter_object_type", "force_eof"]),  -- 340, parser.y 1976
  ("alter_statement", ["ALTER", "ignore_opt", "TABLE", "table_name", "ADD", "VINDEX", "sql_id", "'('", "column_list", "')'", "vindex_type_opt", "vindex_params_opt"]),  -- 341, parser.y 1980
  ("alter_statement", ["ALTER", "ignore_opt", "TABLE", "table_name", "DROP", "VINDEX", "sql_id"]),  -- 342, parser.y 1993
  ("alter_statement", ["ALTER", "ignore_opt", "TABLE", "table_name", "RENAME", "to_opt", "table_name"]),  -- 343, parser.y 2003
  ("alter_statement", ["ALTER", "ignore_opt", "TABLE", "table_name", "RENAME", "index_opt", "force_eof"]),  -- 344, parser.y 2008
  ("alter_statement", ["ALTER", "VIEW", "table_name", "ddl_force_eof"]),  -- 345, parser.y 2013
  ("alter_statement", ["ALTER", "ignore_opt", "TABLE", "table_name", "partition_operation"]),  -- 346, parser.y 2017
  ("alter_object_type", ["COLUMN"]),  -- 347, parser.y 2023
  ("alter_object_type", ["CONSTRAINT"]),  -- 348, parser.y 2024
  ("alter_object_type", ["FOREIGN"]),  -- 349, parser.y 2025
  ("alter_object_type", ["FULLTEXT"]),  -- 350, parser.y 2026
  ("alter_object_type", ["ID"]),  -- 351, parser.y 2027
  ("alter_object_type", ["INDEX"]),  -- 352, parser.y 2028
  ("alter_object_type", ["KEY"]),  -- 353, parser.y 2029
  ("alter_object_type", ["PRIMARY"]),  -- 354, parser.y 2030
  ("alter_object_type", ["SPATIAL"]),  -- 355, parser.y 2031
  ("alter_object_type", ["PARTITION"]),  -- 356, parser.y 2032
  ("alter_object_type", ["UNIQUE"]),  -- 357, parser.y 2033
  ("alter_object_type_index", ["INDEX"]),  -- 358, parser.y 2036
  ("alter_object_type_index", ["KEY"]),  -- 359, parser.y 2037
  ("alter_object_type_rest", ["COLUMN"]),  -- 360, parser.y 2040
  ("alter_object_type_rest", ["FOREIGN"]),  -- 361, parser.y 2041
  ("alter_object_type_rest", ["FULLTEXT"]),  -- 362, parser.y 2042
  ("alter_object_type_rest", ["ID"]),  -- 363, parser.y 2043
  ("alter_object_type_rest", ["PRIMARY"]),  -- 364, parser.y 2044
  ("alter_object_type_rest", ["SPATIAL"]),  -- 365, parser.y 2045
  ("alter_object_type_rest", ["PARTITION"]),  -- 366, parser.y 2046
  ("partition_operation", ["REORGANIZE", "PARTITION", "sql_id", "INTO", "openb", "partition_definitions", "closeb"]),  -- 367, parser.y 2049
  ("partition_definitions", ["partition_definition"]),  -- 368, parser.y 2055
  ("partition_definitions", ["partition_definitions", "','", "partition_definition"]),  -- 369, parser.y 2059
  ("partition_definition", ["PARTITION", "sql_id", "VALUES", "LESS", "THAN", "openb", "value_expression", "closeb"]),  -- 370, parser.y 2065
  ("partition_definition", ["PARTITION", "sql_id", "VALUES", "LESS", "THAN", "openb", "MAXVALUE", "closeb"]),  -- 371, parser.y 2069
  ("rename_statement", ["RENAME", "TABLE", "table_name", "TO", "table_name"]),  -- 372, parser.y 2075
  ("drop_statement", ["DROP", "TABLE", "exists_opt", "table_name"]),  -- 373, parser.y 2081
  ("drop_statement", ["DROP", "INDEX", "ID", "ON", "table_name", "ddl_force_eof"]),  -- 374, parser.y 2089
  ("drop_statement", ["DROP", "VIEW", "exists_opt", "table_name", "ddl_force_eof"]),  -- 375, parser.y 2094
  ("drop_statement", ["DROP", "DATABASE", "exists_opt", "ID"]),  -- 376, parser.y 2102
  ("drop_statement", ["DROP", "SCHEMA", "exists_opt", "ID"]),  -- 377, parser.y 2106
  ("truncate_statement", ["TRUNCATE", "TABLE", "table_name"]),  -- 378, parser.y 2112
  ("truncate_statement", ["TRUNCATE", "table_name"]),  -- 379, parser.y 2116
  ("analyze_statement", ["ANALYZE", "TABLE", "table_name"]),  -- 380, parser.y 2121
  ("show_statement", ["SHOW", "BINARY", "ID", "ddl_force_eof"]),  -- 381, parser.y 2127
  ("show_statement", ["SHOW", "CHARACTER", "SET", "ddl_force_eof"]),  -- 382, parser.y 2131
  ("show_statement", ["SHOW", "CREATE", "DATABASE", "ddl_force_eof"]),  -- 383, parser.y 2135
  ("show_statement", ["SHOW", "CREATE", "ID", "ddl_force_eof"]),  -- 384, parser.y 2140
  ("show_statement", ["SHOW", "CREATE", "PROCEDURE", "ddl_force_eof"]),  -- 385, parser.y 2144
  ("show_statement", ["SHOW", "CREATE", "TABLE", "ddl_force_eof"]),  -- 386, parser.y 2148
  ("show_statement", ["SHOW", "CREATE", "TRIGGER", "ddl_force_eof"]),  -- 387, parser.y 2152
  ("show_statement", ["SHOW", "CREATE", "VIEW", "ddl_force_eof"]),  -- 388, parser.y 2156
  ("show_statement", ["SHOW", "DATABASES", "ddl_force_eof"]),  -- 389, parser.y 2160
  ("show_statement", ["SHOW", "INDEX", "ddl_force_eof"]),  -- 390, parser.y 2164
  ("show_statement", ["SHOW", "KEYS", "ddl_force_eof"]),  -- 391, parser.y 2168
  ("show_statement", ["SHOW", "PROCEDURE", "ddl_force_eof"]),  -- 392, parser.y 2172
  ("show_statement", ["SHOW", "show_session_or_global", "STATUS", "ddl_force_eof"]),  -- 393, parser.y 2176
  ("show_statement", ["SHOW", "TABLE", "ddl_force_eof"]),  -- 394, parser.y 2180
  ("show_statement", ["SHOW", "extended_opt", "full_opt", "tables_or_processlist", "from_database_opt", "like_or_where_opt"]),  -- 395, parser.y 2184
  ("show_statement", ["SHOW", "show_session_or_global", "VARIABLES", "ddl_force_eof"]),  -- 396, parser.y 2194
  ("show_statement", ["SHOW", "VINDEXES"]),  -- 397, parser.y 2198
  ("show_statement", ["SHOW", "VINDEXES", "ON", "table_name"]),  -- 398, parser.y 2202
  ("show_statement", ["SHOW", "VITESS_KEYSPACES"])  -- 399, parser.y 2206
]

/-- Rules 400 to 499 of parser.y. -/
def grammar400 : List (String × List String) := [
  ("show_statement", ["SHOW", "VITESS_SHARDS"]),  -- 400, parser.y 2210
  ("show_statement", ["SHOW", "VITESS_TABLETS"]),  -- 401, parser.y 2214
  ("show_statement", ["SHOW", "VSCHEMA_TABLES"]),  -- 402, parser.y 2218
  ("show_statement", ["SHOW", "ID", "ddl_force_eof"]),  -- 403, parser.y 2228
  ("tables_or_processlist", ["TABLES"]),  -- 404, parser.y 2234
  ("tables_or_processlist", ["PROCESSLIST"]),  -- 405, parser.y 2238
  ("extended_opt", []),  -- 406, parser.y 2243
  ("extended_opt", ["EXTENDED"]),  -- 407, parser.y 2248
  ("full_opt", []),  -- 408, parser.y 2253
  ("full_opt", ["FULL"]),  -- 409, parser.y 2258
  ("from_database_opt", []),  -- 410, parser.y 2263
  ("from_database_opt", ["FROM", "table_id"]),  -- 411, parser.y 2268
  ("from_database_opt", ["IN", "table_id"]),  -- 412, parser.y 2272
  ("like_or_where_opt", []),  -- 413, parser.y 2277
  ("like_or_where_opt", ["LIKE", "STRING"]),  -- 414, parser.y 2282
  ("like_or_where_opt", ["WHERE", "expression"]),  -- 415, parser.y 2286
  ("show_session_or_global", []),  -- 416, parser.y 2291
  ("show_session_or_global", ["SESSION"]),  -- 417, parser.y 2296
  ("show_session_or_global", ["GLOBAL"]),  -- 418, parser.y 2300
  ("use_statement", ["USE", "table_id"]),  -- 419, parser.y 2306
  ("use_statement", ["USE"]),  -- 420, parser.y 2310
  ("begin_statement", ["BEGIN"]),  -- 421, parser.y 2316
  ("begin_statement", ["START", "TRANSACTION"]),  -- 422, parser.y 2320
  ("commit_statement", ["COMMIT"]),  -- 423, parser.y 2326
  ("rollback_statement", ["ROLLBACK"]),  -- 424, parser.y 2332
  ("other_statement", ["DESC", "force_eof"]),  -- 425, parser.y 2338
  ("other_statement", ["DESCRIBE", "force_eof"]),  -- 426, parser.y 2342
  ("other_statement", ["EXPLAIN", "force_eof"]),  -- 427, parser.y 2346
  ("other_statement", ["REPAIR", "force_eof"]),  -- 428, parser.y 2350
  ("other_statement", ["OPTIMIZE", "force_eof"]),  -- 429, parser.y 2354
  ("$$430", []),  -- 430, parser.y 2359
  ("comment_opt", ["$$430", "comment_list"]),  -- 431, parser.y 2359
  ("comment_list", []),  -- 432, parser.y 2369
  ("comment_list", ["comment_list", "COMMENT"]),  -- 433, parser.y 2373
  ("union_op", ["UNION"]),  -- 434, parser.y 2379
  ("union_op", ["UNION", "ALL"]),  -- 435, parser.y 2383
  ("union_op", ["UNION", "DISTINCT"]),  -- 436, parser.y 2387
  ("cache_opt", []),  -- 437, parser.y 2392
  ("cache_opt", ["SQL_NO_CACHE"]),  -- 438, parser.y 2396
  ("cache_opt", ["SQL_CACHE"]),  -- 439, parser.y 2400
  ("distinct_opt", []),  -- 440, parser.y 2405
  ("distinct_opt", ["DISTINCT"]),  -- 441, parser.y 2409
  ("straight_join_opt", []),  -- 442, parser.y 2414
  ("straight_join_opt", ["STRAIGHT_JOIN"]),  -- 443, parser.y 2418
  ("select_expression_list_opt", []),  -- 444, parser.y 2423
  ("select_expression_list_opt", ["select_expression_list"]),  -- 445, parser.y 2427
  ("select_expression_list", ["select_expression"]),  -- 446, parser.y 2433
  ("select_expression_list", ["select_expression_list", "','", "select_expression"]),  -- 447, parser.y 2437
  ("select_expression", ["'*'"]),  -- 448, parser.y 2443
  ("select_expression", ["expression", "as_ci_opt"]),  -- 449, parser.y 2447
  ("select_expression", ["table_id", "'.'", "'*'"]),  -- 450, parser.y 2451
  ("select_expression", ["table_id", "'.'", "reserved_table_id", "'.'", "'*'"]),  -- 451, parser.y 2455
  ("as_ci_opt", []),  -- 452, parser.y 2460
  ("as_ci_opt", ["col_alias"]),  -- 453, parser.y 2464
  ("as_ci_opt", ["AS", "col_alias"]),  -- 454, parser.y 2468
  ("col_alias", ["sql_id"]),  -- 455, parser.y 2474
  ("col_alias", ["STRING"]),  -- 456, parser.y 2475
  ("from_opt", []),  -- 457, parser.y 2480
  ("from_opt", ["FROM", "table_references"]),  -- 458, parser.y 2484
  ("table_references", ["table_reference"]),  -- 459, parser.y 2490
  ("table_references", ["table_references", "','", "table_reference"]),  -- 460, parser.y 2494
  ("table_reference", ["table_factor"]),  -- 461, parser.y 2500
  ("table_reference", ["join_table"]),  -- 462, parser.y 2501
  ("table_factor", ["aliased_table_name"]),  -- 463, parser.y 2504
  ("table_factor", ["subquery", "as_opt", "table_id"]),  -- 464, parser.y 2508
  ("table_factor", ["openb", "table_references", "closeb"]),  -- 465, parser.y 2512
  ("aliased_table_name", ["table_name", "as_opt_id", "index_hint_list"]),  -- 466, parser.y 2518
  ("aliased_table_name", ["table_name", "PARTITION", "openb", "partition_list", "closeb", "as_opt_id", "index_hint_list"]),  -- 467, parser.y 2522
  ("column_list", ["sql_id"]),  -- 468, parser.y 2528
  ("column_list", ["KEY"]),  -- 469, parser.y 2533
  ("column_list", ["column_list", "','", "sql_id"]),  -- 470, parser.y 2537
  ("partition_list", ["sql_id"]),  -- 471, parser.y 2543
  ("partition_list", ["partition_list", "','", "sql_id"]),  -- 472, parser.y 2547
  ("join_table", ["table_reference", "inner_join", "table_factor", "join_condition_opt"]),  -- 473, parser.y 2560
  ("join_table", ["table_reference", "straight_join", "table_factor", "on_expression_opt"]),  -- 474, parser.y 2564
  ("join_table", ["table_reference", "outer_join", "table_reference", "join_condition"]),  -- 475, parser.y 2568
  ("join_table", ["table_reference", "natural_join", "table_factor"]),  -- 476, parser.y 2572
  ("join_condition", ["ON", "expression"]),  -- 477, parser.y 2578
  ("join_condition", ["USING", "'('", "column_list", "')'"]),  -- 478, parser.y 2580
  ("join_condition_opt", []),  -- 479, parser.y 2583
  ("join_condition_opt", ["join_condition"]),  -- 480, parser.y 2586
  ("on_expression_opt", []),  -- 481, parser.y 2589
  ("on_expression_opt", ["ON", "expression"]),  -- 482, parser.y 2592
  ("as_opt", []),  -- 483, parser.y 2595
  ("as_opt", ["AS"]),  -- 484, parser.y 2597
  ("as_opt_id", []),  -- 485, parser.y 2600
  ("as_opt_id", ["table_alias"]),  -- 486, parser.y 2604
  ("as_opt_id", ["AS", "table_alias"]),  -- 487, parser.y 2608
  ("table_alias", ["table_id"]),  -- 488, parser.y 2614
  ("table_alias", ["STRING"]),  -- 489, parser.y 2615
  ("inner_join", ["JOIN"]),  -- 490, parser.y 2621
  ("inner_join", ["INNER", "JOIN"]),  -- 491, parser.y 2625
  ("inner_join", ["CROSS", "JOIN"]),  -- 492, parser.y 2629
  ("straight_join", ["STRAIGHT_JOIN"]),  -- 493, parser.y 2635
  ("outer_join", ["LEFT", "JOIN"]),  -- 494, parser.y 2641
  ("outer_join", ["LEFT", "OUTER", "JOIN"]),  -- 495, parser.y 2645
  ("outer_join", ["RIGHT", "JOIN"]),  -- 496, parser.y 2649
  ("outer_join", ["RIGHT", "OUTER", "JOIN"]),  -- 497, parser.y 2653
  ("natural_join", ["NATURAL", "JOIN"]),  -- 498, parser.y 2659
  ("natural_join", ["NATURAL", "outer_join"])  -- 499, parser.y 2663
]

/-- Rules 500 to 599 of parser.y. -/
def grammar500 : List (String × List String) := [
  ("into_table_name", ["INTO", "table_name"]),  -- 500, parser.y 2673
  ("into_table_name", ["table_name"]),  -- 501, parser.y 2677
  ("table_name", ["table_id"]),  -- 502, parser.y 2683
  ("table_name", ["table_id", "'.'", "reserved_table_id"]),  -- 503, parser.y 2687
  ("index_hint_list", []),  -- 504, parser.y 2692
  ("index_hint_list", ["USE", "INDEX", "openb", "column_list", "closeb"]),  -- 505, parser.y 2696
  ("index_hint_list", ["IGNORE", "INDEX", "openb", "column_list", "closeb"]),  -- 506, parser.y 2700
  ("index_hint_list", ["FORCE", "INDEX", "openb", "column_list", "closeb"]),  -- 507, parser.y 2704
  ("where_expression_opt", []),  -- 508, parser.y 2709
  ("where_expression_opt", ["WHERE", "expression"]),  -- 509, parser.y 2713
  ("include_columns_opt", []),  -- 510, parser.y 2718
  ("include_columns_opt", ["INCLUDE", "'('", "column_list", "')'"]),  -- 511, parser.y 2722
  ("expression", ["condition"]),  -- 512, parser.y 2728
  ("expression", ["expression", "AND", "expression"]),  -- 513, parser.y 2732
  ("expression", ["expression", "OR", "expression"]),  -- 514, parser.y 2736
  ("expression", ["NOT", "expression"]),  -- 515, parser.y 2740
  ("expression", ["expression", "IS", "is_suffix"]),  -- 516, parser.y 2744
  ("expression", ["value_expression"]),  -- 517, parser.y 2748
  ("expression", ["DEFAULT", "default_opt"]),  -- 518, parser.y 2752
  ("default_opt", []),  -- 519, parser.y 2757
  ("default_opt", ["openb", "ID", "closeb"]),  -- 520, parser.y 2762
  ("boolean_value", ["TRUE"]),  -- 521, parser.y 2768
  ("boolean_value", ["FALSE"]),  -- 522, parser.y 2772
  ("condition", ["value_expression", "compare", "value_expression"]),  -- 523, parser.y 2778
  ("condition", ["value_expression", "IN", "col_tuple"]),  -- 524, parser.y 2782
  ("condition", ["value_expression", "NOT", "IN", "col_tuple"]),  -- 525, parser.y 2786
  ("condition", ["value_expression", "LIKE", "value_expression", "like_escape_opt"]),  -- 526, parser.y 2790
  ("condition", ["value_expression", "NOT", "LIKE", "value_expression", "like_escape_opt"]),  -- 527, parser.y 2794
  ("condition", ["value_expression", "REGEXP", "value_expression"]),  -- 528, parser.y 2798
  ("condition", ["value_expression", "NOT", "REGEXP", "value_expression"]),  -- 529, parser.y 2802
  ("condition", ["value_expression", "BETWEEN", "value_expression", "AND", "value_expression"]),  -- 530, parser.y 2806
  ("condition", ["value_expression", "NOT", "BETWEEN", "value_expression", "AND", "value_expression"]),  -- 531, parser.y 2810
  ("condition", ["EXISTS", "subquery"]),  -- 532, parser.y 2814
  ("is_suffix", ["NULL"]),  -- 533, parser.y 2820
  ("is_suffix", ["NOT", "NULL"]),  -- 534, parser.y 2824
  ("is_suffix", ["TRUE"]),  -- 535, parser.y 2828
  ("is_suffix", ["NOT", "TRUE"]),  -- 536, parser.y 2832
  ("is_suffix", ["FALSE"]),  -- 537, parser.y 2836
  ("is_suffix", ["NOT", "FALSE"]),  -- 538, parser.y 2840
  ("compare", ["'='"]),  -- 539, parser.y 2846
  ("compare", ["'<'"]),  -- 540, parser.y 2850
  ("compare", ["'>'"]),  -- 541, parser.y 2854
  ("compare", ["LE"]),  -- 542, parser.y 2858
  ("compare", ["GE"]),  -- 543, parser.y 2862
  ("compare", ["NE"]),  -- 544, parser.y 2866
  ("compare", ["NULL_SAFE_EQUAL"]),  -- 545, parser.y 2870
  ("like_escape_opt", []),  -- 546, parser.y 2875
  ("like_escape_opt", ["ESCAPE", "value_expression"]),  -- 547, parser.y 2879
  ("col_tuple", ["row_tuple"]),  -- 548, parser.y 2885
  ("col_tuple", ["subquery"]),  -- 549, parser.y 2889
  ("col_tuple", ["LIST_ARG"]),  -- 550, parser.y 2893
  ("subquery", ["openb", "select_statement", "closeb"]),  -- 551, parser.y 2899
  ("expression_list", ["expression"]),  -- 552, parser.y 2905
  ("expression_list", ["expression_list", "','", "expression"]),  -- 553, parser.y 2909
  ("value_expression", ["value"]),  -- 554, parser.y 2915
  ("value_expression", ["boolean_value"]),  -- 555, parser.y 2919
  ("value_expression", ["column_name"]),  -- 556, parser.y 2923
  ("value_expression", ["tuple_expression"]),  -- 557, parser.y 2927
  ("value_expression", ["subquery"]),  -- 558, parser.y 2931
  ("value_expression", ["value_expression", "'&'", "value_expression"]),  -- 559, parser.y 2935
  ("value_expression", ["value_expression", "'|'", "value_expression"]),  -- 560, parser.y 2939
  ("value_expression", ["value_expression", "'^'", "value_expression"]),  -- 561, parser.y 2943
  ("value_expression", ["value_expression", "'+'", "value_expression"]),  -- 562, parser.y 2947
  ("value_expression", ["value_expression", "'-'", "value_expression"]),  -- 563, parser.y 2951
  ("value_expression", ["value_expression", "'*'", "value_expression"]),  -- 564, parser.y 2955
  ("value_expression", ["value_expression", "'/'", "value_expression"]),  -- 565, parser.y 2959
  ("value_expression", ["value_expression", "DIV", "value_expression"]),  -- 566, parser.y 2963
  ("value_expression", ["value_expression", "'%'", "value_expression"]),  -- 567, parser.y 2967
  ("value_expression", ["value_expression", "MOD", "value_expression"]),  -- 568, parser.y 2971
  ("value_expression", ["value_expression", "SHIFT_LEFT", "value_expression"]),  -- 569, parser.y 2975
  ("value_expression", ["value_expression", "SHIFT_RIGHT", "value_expression"]),  -- 570, parser.y 2979
  ("value_expression", ["column_name", "JSON_EXTRACT_OP", "value"]),  -- 571, parser.y 2983
  ("value_expression", ["column_name", "JSON_UNQUOTE_EXTRACT_OP", "value"]),  -- 572, parser.y 2987
  ("value_expression", ["value_expression", "COLLATE", "charset"]),  -- 573, parser.y 2991
  ("value_expression", ["BINARY", "value_expression"]),  -- 574, parser.y 2995
  ("value_expression", ["UNDERSCORE_BINARY", "value_expression"]),  -- 575, parser.y 2999
  ("value_expression", ["'+'", "value_expression"]),  -- 576, parser.y 3003
  ("value_expression", ["'-'", "value_expression"]),  -- 577, parser.y 3011
  ("value_expression", ["'~'", "value_expression"]),  -- 578, parser.y 3025
  ("value_expression", ["'!'", "value_expression"]),  -- 579, parser.y 3029
  ("value_expression", ["INTERVAL", "value_expression", "sql_id"]),  -- 580, parser.y 3033
  ("value_expression", ["value_expression", "TYPECAST", "simple_convert_type"]),  -- 581, parser.y 3041
  ("value_expression", ["function_call_generic"]),  -- 582, parser.y 3045
  ("value_expression", ["function_call_keyword"]),  -- 583, parser.y 3046
  ("value_expression", ["function_call_nonkeyword"]),  -- 584, parser.y 3047
  ("value_expression", ["function_call_conflict"]),  -- 585, parser.y 3048
  ("function_call_generic", ["sql_id", "openb", "select_expression_list_opt", "closeb"]),  -- 586, parser.y 3055
  ("function_call_generic", ["sql_id", "openb", "DISTINCT", "select_expression_list", "closeb"]),  -- 587, parser.y 3059
  ("function_call_generic", ["table_id", "'.'", "reserved_sql_id", "openb", "select_expression_list_opt", "closeb"]),  -- 588, parser.y 3063
  ("function_call_keyword", ["LEFT", "openb", "select_expression_list", "closeb"]),  -- 589, parser.y 3073
  ("function_call_keyword", ["RIGHT", "openb", "select_expression_list", "closeb"]),  -- 590, parser.y 3077
  ("function_call_keyword", ["CONVERT", "openb", "expression", "','", "convert_type", "closeb"]),  -- 591, parser.y 3081
  ("function_call_keyword", ["CAST", "openb", "expression", "AS", "convert_type", "closeb"]),  -- 592, parser.y 3085
  ("function_call_keyword", ["CONVERT", "openb", "expression", "USING", "charset", "closeb"]),  -- 593, parser.y 3089
  ("function_call_keyword", ["SUBSTR", "openb", "column_name", "','", "value_expression", "closeb"]),  -- 594, parser.y 3093
  ("function_call_keyword", ["SUBSTR", "openb", "column_name", "','", "value_expression", "','", "value_expression", "closeb"]),  -- 595, parser.y 3097
  ("function_call_keyword", ["SUBSTR", "openb", "column_name", "FROM", "value_expression", "FOR", "value_expression", "closeb"]),  -- 596, parser.y 3101
  ("function_call_keyword", ["SUBSTRING", "openb", "column_name", "','", "value_expression", "closeb"]),  -- 597, parser.y 3105
  ("function_call_keyword", ["SUBSTRING", "openb", "column_name", "','", "value_expression", "','", "value_expression", "closeb"]),  -- 598, parser.y 3109
  ("function_call_keyword", ["SUBSTRING", "openb", "column_name", "FROM", "value_expression", "FOR", "value_expression", "closeb"])  -- 599, parser.y 3113
]

/-- Rules 600 to 699 of parser.y. -/
def grammar600 : List (String × List String) := [
  ("function_call_keyword", ["MATCH", "openb", "select_expression_list", "closeb", "AGAINST", "openb", "value_expression", "match_option", "closeb"]),  -- 600, parser.y 3117
  ("function_call_keyword", ["GROUP_CONCAT", "openb", "distinct_opt", "select_expression_list", "order_by_opt", "separator_opt", "closeb"]),  -- 601, parser.y 3121
  ("function_call_keyword", ["CASE", "expression_opt", "when_expression_list", "else_expression_opt", "END"]),  -- 602, parser.y 3125
  ("function_call_keyword", ["VALUES", "openb", "column_name", "closeb"]),  -- 603, parser.y 3129
  ("function_call_nonkeyword", ["CURRENT_TIMESTAMP", "func_datetime_precision_opt"]),  -- 604, parser.y 3139
  ("function_call_nonkeyword", ["UTC_TIMESTAMP", "func_datetime_precision_opt"]),  -- 605, parser.y 3143
  ("function_call_nonkeyword", ["UTC_TIME", "func_datetime_precision_opt"]),  -- 606, parser.y 3147
  ("function_call_nonkeyword", ["UTC_DATE", "func_datetime_precision_opt"]),  -- 607, parser.y 3151
  ("function_call_nonkeyword", ["LOCALTIME", "func_datetime_precision_opt"]),  -- 608, parser.y 3156
  ("function_call_nonkeyword", ["LOCALTIMESTAMP", "func_datetime_precision_opt"]),  -- 609, parser.y 3161
  ("function_call_nonkeyword", ["CURRENT_DATE", "func_datetime_precision_opt"]),  -- 610, parser.y 3166
  ("function_call_nonkeyword", ["CURRENT_TIME", "func_datetime_precision_opt"]),  -- 611, parser.y 3171
  ("function_call_nonkeyword", ["TYPECAST", "simple_convert_type"]),  -- 612, parser.y 3175
  ("func_datetime_precision_opt", []),  -- 613, parser.y 3180
  ("func_datetime_precision_opt", ["openb", "closeb"]),  -- 614, parser.y 3182
  ("function_call_conflict", ["IF", "openb", "select_expression_list", "closeb"]),  -- 615, parser.y 3189
  ("function_call_conflict", ["DATABASE", "openb", "select_expression_list_opt", "closeb"]),  -- 616, parser.y 3193
  ("function_call_conflict", ["MOD", "openb", "select_expression_list", "closeb"]),  -- 617, parser.y 3197
  ("function_call_conflict", ["REPLACE", "openb", "select_expression_list", "closeb"]),  -- 618, parser.y 3201
  ("match_option", []),  -- 619, parser.y 3206
  ("match_option", ["IN", "BOOLEAN", "MODE"]),  -- 620, parser.y 3211
  ("match_option", ["IN", "NATURAL", "LANGUAGE", "MODE"]),  -- 621, parser.y 3215
  ("match_option", ["IN", "NATURAL", "LANGUAGE", "MODE", "WITH", "QUERY", "EXPANSION"]),  -- 622, parser.y 3219
  ("match_option", ["WITH", "QUERY", "EXPANSION"]),  -- 623, parser.y 3223
  ("charset", ["ID"]),  -- 624, parser.y 3229
  ("charset", ["STRING"]),  -- 625, parser.y 3233
  ("convert_type", ["BINARY", "length_opt"]),  -- 626, parser.y 3239
  ("convert_type", ["CHAR", "length_opt", "charset_opt"]),  -- 627, parser.y 3243
  ("convert_type", ["CHAR", "length_opt", "ID"]),  -- 628, parser.y 3247
  ("convert_type", ["DATE"]),  -- 629, parser.y 3251
  ("convert_type", ["DATETIME", "length_opt"]),  -- 630, parser.y 3255
  ("convert_type", ["DECIMAL", "decimal_length_opt"]),  -- 631, parser.y 3259
  ("convert_type", ["JSON"]),  -- 632, parser.y 3265
  ("convert_type", ["JSONB"]),  -- 633, parser.y 3269
  ("convert_type", ["NCHAR", "length_opt"]),  -- 634, parser.y 3273
  ("convert_type", ["SIGNED"]),  -- 635, parser.y 3277
  ("convert_type", ["SIGNED", "INTEGER"]),  -- 636, parser.y 3281
  ("convert_type", ["TIME", "length_opt"]),  -- 637, parser.y 3285
  ("convert_type", ["UNSIGNED"]),  -- 638, parser.y 3289
  ("convert_type", ["UNSIGNED", "INTEGER"]),  -- 639, parser.y 3293
  ("simple_convert_type", ["BINARY"]),  -- 640, parser.y 3299
  ("simple_convert_type", ["CHARACTER", "VARYING"]),  -- 641, parser.y 3303
  ("simple_convert_type", ["DATE"]),  -- 642, parser.y 3307
  ("simple_convert_type", ["DATETIME"]),  -- 643, parser.y 3311
  ("simple_convert_type", ["int_type"]),  -- 644, parser.y 3315
  ("simple_convert_type", ["bool_type"]),  -- 645, parser.y 3319
  ("simple_convert_type", ["TEXT"]),  -- 646, parser.y 3323
  ("expression_opt", []),  -- 647, parser.y 3328
  ("expression_opt", ["expression"]),  -- 648, parser.y 3332
  ("separator_opt", []),  -- 649, parser.y 3337
  ("separator_opt", ["SEPARATOR", "STRING"]),  -- 650, parser.y 3341
  ("when_expression_list", ["when_expression"]),  -- 651, parser.y 3347
  ("when_expression_list", ["when_expression_list", "when_expression"]),  -- 652, parser.y 3351
  ("when_expression", ["WHEN", "expression", "THEN", "expression"]),  -- 653, parser.y 3357
  ("else_expression_opt", []),  -- 654, parser.y 3362
  ("else_expression_opt", ["ELSE", "expression"]),  -- 655, parser.y 3366
  ("column_name", ["sql_id"]),  -- 656, parser.y 3372
  ("column_name", ["table_id", "'.'", "reserved_sql_id"]),  -- 657, parser.y 3376
  ("column_name", ["table_id", "'.'", "reserved_table_id", "'.'", "reserved_sql_id"]),  -- 658, parser.y 3380
  ("value", ["STRING"]),  -- 659, parser.y 3386
  ("value", ["HEX"]),  -- 660, parser.y 3390
  ("value", ["BIT_LITERAL"]),  -- 661, parser.y 3394
  ("value", ["INTEGRAL"]),  -- 662, parser.y 3398
  ("value", ["FLOAT"]),  -- 663, parser.y 3402
  ("value", ["HEXNUM"]),  -- 664, parser.y 3406
  ("value", ["VALUE_ARG"]),  -- 665, parser.y 3410
  ("value", ["NULL"]),  -- 666, parser.y 3414
  ("num_val", ["sql_id"]),  -- 667, parser.y 3420
  ("num_val", ["INTEGRAL", "VALUES"]),  -- 668, parser.y 3429
  ("num_val", ["VALUE_ARG", "VALUES"]),  -- 669, parser.y 3433
  ("group_by_opt", []),  -- 670, parser.y 3438
  ("group_by_opt", ["GROUP", "BY", "expression_list"]),  -- 671, parser.y 3442
  ("having_opt", []),  -- 672, parser.y 3447
  ("having_opt", ["HAVING", "expression"]),  -- 673, parser.y 3451
  ("order_by_opt", []),  -- 674, parser.y 3456
  ("order_by_opt", ["ORDER", "BY", "order_list"]),  -- 675, parser.y 3460
  ("order_list", ["order"]),  -- 676, parser.y 3466
  ("order_list", ["order_list", "','", "order"]),  -- 677, parser.y 3470
  ("order", ["expression", "asc_desc_opt"]),  -- 678, parser.y 3476
  ("asc_desc_opt", []),  -- 679, parser.y 3481
  ("asc_desc_opt", ["ASC"]),  -- 680, parser.y 3485
  ("asc_desc_opt", ["DESC"]),  -- 681, parser.y 3489
  ("limit_opt", []),  -- 682, parser.y 3494
  ("limit_opt", ["LIMIT", "expression"]),  -- 683, parser.y 3498
  ("limit_opt", ["LIMIT", "expression", "','", "expression"]),  -- 684, parser.y 3502
  ("limit_opt", ["LIMIT", "expression", "OFFSET", "expression"]),  -- 685, parser.y 3506
  ("lock_opt", []),  -- 686, parser.y 3511
  ("lock_opt", ["FOR", "UPDATE"]),  -- 687, parser.y 3515
  ("lock_opt", ["LOCK", "IN", "SHARE", "MODE"]),  -- 688, parser.y 3519
  ("insert_data", ["VALUES", "tuple_list"]),  -- 689, parser.y 3532
  ("insert_data", ["select_statement"]),  -- 690, parser.y 3536
  ("insert_data", ["openb", "select_statement", "closeb"]),  -- 691, parser.y 3540
  ("insert_data", ["openb", "ins_column_list", "closeb", "VALUES", "tuple_list"]),  -- 692, parser.y 3545
  ("insert_data", ["openb", "ins_column_list", "closeb", "select_statement"]),  -- 693, parser.y 3549
  ("insert_data", ["openb", "ins_column_list", "closeb", "openb", "select_statement", "closeb"]),  -- 694, parser.y 3553
  ("ins_column_list", ["sql_id"]),  -- 695, parser.y 3560
  ("ins_column_list", ["sql_id", "'.'", "sql_id"]),  -- 696, parser.y 3564
  ("ins_column_list", ["ins_column_list", "','", "sql_id"]),  -- 697, parser.y 3568
  ("ins_column_list", ["ins_column_list", "','", "sql_id", "'.'", "sql_id"]),  -- 698, parser.y 3572
  ("on_dup_opt", [])  -- 699, parser.y 3577
]

/-- Rules 700 to 799 of parser.y. -/
def grammar700 : List (String × List String) := [
  ("on_dup_opt", ["ON", "DUPLICATE", "KEY", "UPDATE", "update_list"]),  -- 700, parser.y 3581
  ("tuple_list", ["tuple_or_empty"]),  -- 701, parser.y 3587
  ("tuple_list", ["tuple_list", "','", "tuple_or_empty"]),  -- 702, parser.y 3591
  ("tuple_or_empty", ["row_tuple"]),  -- 703, parser.y 3597
  ("tuple_or_empty", ["openb", "closeb"]),  -- 704, parser.y 3601
  ("row_tuple", ["openb", "expression_list", "closeb"]),  -- 705, parser.y 3607
  ("tuple_expression", ["row_tuple"]),  -- 706, parser.y 3613
  ("update_list", ["update_expression"]),  -- 707, parser.y 3623
  ("update_list", ["update_list", "','", "update_expression"]),  -- 708, parser.y 3627
  ("update_expression", ["column_name", "'='", "expression"]),  -- 709, parser.y 3633
  ("set_list", ["set_expression"]),  -- 710, parser.y 3639
  ("set_list", ["set_list", "','", "set_expression"]),  -- 711, parser.y 3643
  ("set_expression", ["reserved_sql_id", "'='", "ON"]),  -- 712, parser.y 3649
  ("set_expression", ["reserved_sql_id", "'='", "OFF"]),  -- 713, parser.y 3653
  ("set_expression", ["reserved_sql_id", "'='", "expression"]),  -- 714, parser.y 3657
  ("set_expression", ["charset_or_character_set", "charset_value", "collate_opt"]),  -- 715, parser.y 3661
  ("charset_or_character_set", ["CHARSET"]),  -- 716, parser.y 3667
  ("charset_or_character_set", ["CHARACTER", "SET"]),  -- 717, parser.y 3668
  ("charset_or_character_set", ["NAMES"]),  -- 718, parser.y 3672
  ("charset_value", ["sql_id"]),  -- 719, parser.y 3675
  ("charset_value", ["STRING"]),  -- 720, parser.y 3679
  ("charset_value", ["DEFAULT"]),  -- 721, parser.y 3683
  ("for_from", ["FOR"]),  -- 722, parser.y 3689
  ("for_from", ["FROM"]),  -- 723, parser.y 3690
  ("exists_opt", []),  -- 724, parser.y 3692
  ("exists_opt", ["IF", "EXISTS"]),  -- 725, parser.y 3694
  ("not_exists_opt", []),  -- 726, parser.y 3697
  ("not_exists_opt", ["IF", "NOT", "EXISTS"]),  -- 727, parser.y 3699
  ("ignore_opt", []),  -- 728, parser.y 3702
  ("ignore_opt", ["IGNORE"]),  -- 729, parser.y 3704
  ("non_add_drop_or_rename_operation", ["ALTER"]),  -- 730, parser.y 3708
  ("non_add_drop_or_rename_operation", ["AUTO_INCREMENT"]),  -- 731, parser.y 3710
  ("non_add_drop_or_rename_operation", ["CHARACTER"]),  -- 732, parser.y 3712
  ("non_add_drop_or_rename_operation", ["COMMENT_KEYWORD"]),  -- 733, parser.y 3714
  ("non_add_drop_or_rename_operation", ["DEFAULT"]),  -- 734, parser.y 3716
  ("non_add_drop_or_rename_operation", ["ORDER"]),  -- 735, parser.y 3718
  ("non_add_drop_or_rename_operation", ["CONVERT"]),  -- 736, parser.y 3720
  ("non_add_drop_or_rename_operation", ["PARTITION"]),  -- 737, parser.y 3722
  ("non_add_drop_or_rename_operation", ["UNUSED"]),  -- 738, parser.y 3724
  ("non_add_drop_or_rename_operation", ["ID"]),  -- 739, parser.y 3726
  ("to_opt", []),  -- 740, parser.y 3729
  ("to_opt", ["TO"]),  -- 741, parser.y 3731
  ("to_opt", ["AS"]),  -- 742, parser.y 3733
  ("index_opt", ["INDEX"]),  -- 743, parser.y 3737
  ("index_opt", ["KEY"]),  -- 744, parser.y 3739
  ("sql_id", ["ID"]),  -- 745, parser.y 3743
  ("sql_id", ["non_reserved_keyword"]),  -- 746, parser.y 3747
  ("reserved_sql_id", ["sql_id"]),  -- 747, parser.y 3753
  ("reserved_sql_id", ["reserved_keyword"]),  -- 748, parser.y 3754
  ("table_id", ["ID"]),  -- 749, parser.y 3760
  ("table_id", ["non_reserved_keyword"]),  -- 750, parser.y 3764
  ("reserved_table_id", ["table_id"]),  -- 751, parser.y 3770
  ("reserved_table_id", ["reserved_keyword"]),  -- 752, parser.y 3771
  ("reserved_keyword", ["ADD"]),  -- 753, parser.y 3786
  ("reserved_keyword", ["AFTER"]),  -- 754, parser.y 3787
  ("reserved_keyword", ["ALWAYS"]),  -- 755, parser.y 3788
  ("reserved_keyword", ["AND"]),  -- 756, parser.y 3789
  ("reserved_keyword", ["AS"]),  -- 757, parser.y 3790
  ("reserved_keyword", ["ASC"]),  -- 758, parser.y 3791
  ("reserved_keyword", ["AUTO_INCREMENT"]),  -- 759, parser.y 3792
  ("reserved_keyword", ["AUTOINCREMENT"]),  -- 760, parser.y 3793
  ("reserved_keyword", ["BEFORE"]),  -- 761, parser.y 3794
  ("reserved_keyword", ["BETWEEN"]),  -- 762, parser.y 3795
  ("reserved_keyword", ["BINARY"]),  -- 763, parser.y 3796
  ("reserved_keyword", ["BY"]),  -- 764, parser.y 3797
  ("reserved_keyword", ["CASE"]),  -- 765, parser.y 3798
  ("reserved_keyword", ["CLUSTERED"]),  -- 766, parser.y 3799
  ("reserved_keyword", ["NONCLUSTERED"]),  -- 767, parser.y 3800
  ("reserved_keyword", ["COLLATE"]),  -- 768, parser.y 3801
  ("reserved_keyword", ["CONVERT"]),  -- 769, parser.y 3802
  ("reserved_keyword", ["CREATE"]),  -- 770, parser.y 3803
  ("reserved_keyword", ["CROSS"]),  -- 771, parser.y 3804
  ("reserved_keyword", ["CURRENT_DATE"]),  -- 772, parser.y 3805
  ("reserved_keyword", ["CURRENT_TIME"]),  -- 773, parser.y 3806
  ("reserved_keyword", ["CURRENT_TIMESTAMP"]),  -- 774, parser.y 3807
  ("reserved_keyword", ["SUBSTR"]),  -- 775, parser.y 3808
  ("reserved_keyword", ["SUBSTRING"]),  -- 776, parser.y 3809
  ("reserved_keyword", ["DATABASE"]),  -- 777, parser.y 3810
  ("reserved_keyword", ["DATABASES"]),  -- 778, parser.y 3811
  ("reserved_keyword", ["DEFAULT"]),  -- 779, parser.y 3812
  ("reserved_keyword", ["DELETE"]),  -- 780, parser.y 3813
  ("reserved_keyword", ["DESC"]),  -- 781, parser.y 3814
  ("reserved_keyword", ["DESCRIBE"]),  -- 782, parser.y 3815
  ("reserved_keyword", ["DISTINCT"]),  -- 783, parser.y 3816
  ("reserved_keyword", ["DIV"]),  -- 784, parser.y 3817
  ("reserved_keyword", ["DROP"]),  -- 785, parser.y 3818
  ("reserved_keyword", ["EACH"]),  -- 786, parser.y 3819
  ("reserved_keyword", ["ELSE"]),  -- 787, parser.y 3820
  ("reserved_keyword", ["END"]),  -- 788, parser.y 3821
  ("reserved_keyword", ["ESCAPE"]),  -- 789, parser.y 3822
  ("reserved_keyword", ["EXISTS"]),  -- 790, parser.y 3823
  ("reserved_keyword", ["EXPLAIN"]),  -- 791, parser.y 3824
  ("reserved_keyword", ["FALSE"]),  -- 792, parser.y 3825
  ("reserved_keyword", ["FOR"]),  -- 793, parser.y 3826
  ("reserved_keyword", ["FORCE"]),  -- 794, parser.y 3827
  ("reserved_keyword", ["FOREIGN"]),  -- 795, parser.y 3828
  ("reserved_keyword", ["FROM"]),  -- 796, parser.y 3829
  ("reserved_keyword", ["GENERATED"]),  -- 797, parser.y 3830
  ("reserved_keyword", ["GROUP"]),  -- 798, parser.y 3831
  ("reserved_keyword", ["HAVING"])  -- 799, parser.y 3832
]

/-- Rules 800 to 899 of parser.y. -/
def grammar800 : List (String × List String) := [
  ("reserved_keyword", ["IDENTITY"]),  -- 800, parser.y 3833
  ("reserved_keyword", ["IF"]),  -- 801, parser.y 3834
  ("reserved_keyword", ["IGNORE"]),  -- 802, parser.y 3835
  ("reserved_keyword", ["IN"]),  -- 803, parser.y 3836
  ("reserved_keyword", ["INCLUDE"]),  -- 804, parser.y 3837
  ("reserved_keyword", ["INDEX"]),  -- 805, parser.y 3838
  ("reserved_keyword", ["INNER"]),  -- 806, parser.y 3839
  ("reserved_keyword", ["INSERT"]),  -- 807, parser.y 3840
  ("reserved_keyword", ["INTERVAL"]),  -- 808, parser.y 3841
  ("reserved_keyword", ["INTO"]),  -- 809, parser.y 3842
  ("reserved_keyword", ["IS"]),  -- 810, parser.y 3843
  ("reserved_keyword", ["JOIN"]),  -- 811, parser.y 3844
  ("reserved_keyword", ["KEY"]),  -- 812, parser.y 3845
  ("reserved_keyword", ["LEFT"]),  -- 813, parser.y 3846
  ("reserved_keyword", ["LIKE"]),  -- 814, parser.y 3847
  ("reserved_keyword", ["LIMIT"]),  -- 815, parser.y 3848
  ("reserved_keyword", ["LOCALTIME"]),  -- 816, parser.y 3849
  ("reserved_keyword", ["LOCALTIMESTAMP"]),  -- 817, parser.y 3850
  ("reserved_keyword", ["LOCK"]),  -- 818, parser.y 3851
  ("reserved_keyword", ["MATCH"]),  -- 819, parser.y 3852
  ("reserved_keyword", ["MAXVALUE"]),  -- 820, parser.y 3853
  ("reserved_keyword", ["MOD"]),  -- 821, parser.y 3854
  ("reserved_keyword", ["NATURAL"]),  -- 822, parser.y 3855
  ("reserved_keyword", ["NEXT"]),  -- 823, parser.y 3856
  ("reserved_keyword", ["NOT"]),  -- 824, parser.y 3857
  ("reserved_keyword", ["NULL"]),  -- 825, parser.y 3858
  ("reserved_keyword", ["ON"]),  -- 826, parser.y 3859
  ("reserved_keyword", ["ONLY"]),  -- 827, parser.y 3860
  ("reserved_keyword", ["OR"]),  -- 828, parser.y 3861
  ("reserved_keyword", ["ORDER"]),  -- 829, parser.y 3862
  ("reserved_keyword", ["OUTER"]),  -- 830, parser.y 3863
  ("reserved_keyword", ["POLICY"]),  -- 831, parser.y 3864
  ("reserved_keyword", ["REGEXP"]),  -- 832, parser.y 3865
  ("reserved_keyword", ["RENAME"]),  -- 833, parser.y 3866
  ("reserved_keyword", ["REPLACE"]),  -- 834, parser.y 3867
  ("reserved_keyword", ["RIGHT"]),  -- 835, parser.y 3868
  ("reserved_keyword", ["ROW"]),  -- 836, parser.y 3869
  ("reserved_keyword", ["SCHEMA"]),  -- 837, parser.y 3870
  ("reserved_keyword", ["SELECT"]),  -- 838, parser.y 3871
  ("reserved_keyword", ["SEPARATOR"]),  -- 839, parser.y 3872
  ("reserved_keyword", ["SET"]),  -- 840, parser.y 3873
  ("reserved_keyword", ["SHOW"]),  -- 841, parser.y 3874
  ("reserved_keyword", ["STRAIGHT_JOIN"]),  -- 842, parser.y 3875
  ("reserved_keyword", ["TABLE"]),  -- 843, parser.y 3876
  ("reserved_keyword", ["TABLES"]),  -- 844, parser.y 3877
  ("reserved_keyword", ["THEN"]),  -- 845, parser.y 3878
  ("reserved_keyword", ["TO"]),  -- 846, parser.y 3879
  ("reserved_keyword", ["TRUE"]),  -- 847, parser.y 3880
  ("reserved_keyword", ["UNION"]),  -- 848, parser.y 3881
  ("reserved_keyword", ["UNIQUE"]),  -- 849, parser.y 3882
  ("reserved_keyword", ["UPDATE"]),  -- 850, parser.y 3883
  ("reserved_keyword", ["USE"]),  -- 851, parser.y 3884
  ("reserved_keyword", ["USING"]),  -- 852, parser.y 3885
  ("reserved_keyword", ["UTC_DATE"]),  -- 853, parser.y 3886
  ("reserved_keyword", ["UTC_TIME"]),  -- 854, parser.y 3887
  ("reserved_keyword", ["UTC_TIMESTAMP"]),  -- 855, parser.y 3888
  ("reserved_keyword", ["VALUES"]),  -- 856, parser.y 3889
  ("reserved_keyword", ["WHEN"]),  -- 857, parser.y 3890
  ("reserved_keyword", ["WHERE"]),  -- 858, parser.y 3891
  ("reserved_keyword", ["OFF"]),  -- 859, parser.y 3892
  ("non_reserved_keyword", ["ACTION"]),  -- 860, parser.y 3902
  ("non_reserved_keyword", ["AGAINST"]),  -- 861, parser.y 3903
  ("non_reserved_keyword", ["ALL"]),  -- 862, parser.y 3904
  ("non_reserved_keyword", ["BEGIN"]),  -- 863, parser.y 3905
  ("non_reserved_keyword", ["BIGINT"]),  -- 864, parser.y 3906
  ("non_reserved_keyword", ["BIGSERIAL"]),  -- 865, parser.y 3907
  ("non_reserved_keyword", ["BIT"]),  -- 866, parser.y 3908
  ("non_reserved_keyword", ["BLOB"]),  -- 867, parser.y 3909
  ("non_reserved_keyword", ["BOOL"]),  -- 868, parser.y 3910
  ("non_reserved_keyword", ["BOOLEAN"]),  -- 869, parser.y 3911
  ("non_reserved_keyword", ["CASCADE"]),  -- 870, parser.y 3912
  ("non_reserved_keyword", ["CHAR"]),  -- 871, parser.y 3913
  ("non_reserved_keyword", ["CHARACTER"]),  -- 872, parser.y 3914
  ("non_reserved_keyword", ["CHARSET"]),  -- 873, parser.y 3915
  ("non_reserved_keyword", ["CHECK"]),  -- 874, parser.y 3916
  ("non_reserved_keyword", ["COMMENT_KEYWORD"]),  -- 875, parser.y 3917
  ("non_reserved_keyword", ["COMMIT"]),  -- 876, parser.y 3918
  ("non_reserved_keyword", ["COMMITTED"]),  -- 877, parser.y 3919
  ("non_reserved_keyword", ["CONSTRAINT"]),  -- 878, parser.y 3920
  ("non_reserved_keyword", ["CURRENT_USER"]),  -- 879, parser.y 3921
  ("non_reserved_keyword", ["DATE"]),  -- 880, parser.y 3922
  ("non_reserved_keyword", ["DATETIME"]),  -- 881, parser.y 3923
  ("non_reserved_keyword", ["DATETIME2"]),  -- 882, parser.y 3924
  ("non_reserved_keyword", ["DATETIMEOFFSET"]),  -- 883, parser.y 3925
  ("non_reserved_keyword", ["DECIMAL"]),  -- 884, parser.y 3926
  ("non_reserved_keyword", ["DOUBLE"]),  -- 885, parser.y 3927
  ("non_reserved_keyword", ["DUPLICATE"]),  -- 886, parser.y 3928
  ("non_reserved_keyword", ["ENUM"]),  -- 887, parser.y 3929
  ("non_reserved_keyword", ["EXPANSION"]),  -- 888, parser.y 3930
  ("non_reserved_keyword", ["FLOAT_TYPE"]),  -- 889, parser.y 3931
  ("non_reserved_keyword", ["FULLTEXT"]),  -- 890, parser.y 3932
  ("non_reserved_keyword", ["GEOMETRY"]),  -- 891, parser.y 3933
  ("non_reserved_keyword", ["GEOMETRYCOLLECTION"]),  -- 892, parser.y 3934
  ("non_reserved_keyword", ["GETDATE"]),  -- 893, parser.y 3935
  ("non_reserved_keyword", ["GLOBAL"]),  -- 894, parser.y 3936
  ("non_reserved_keyword", ["INHERIT"]),  -- 895, parser.y 3937
  ("non_reserved_keyword", ["INT"]),  -- 896, parser.y 3938
  ("non_reserved_keyword", ["INTEGER"]),  -- 897, parser.y 3939
  ("non_reserved_keyword", ["ISOLATION"]),  -- 898, parser.y 3940
  ("non_reserved_keyword", ["JSON"])  -- 899, parser.y 3941
]

/-- Rules 900 to 998 of parser.y. -/
def grammar900 : List (String × List String) := [
  ("non_reserved_keyword", ["KEYS"]),  -- 900, parser.y 3942
  ("non_reserved_keyword", ["KEY_BLOCK_SIZE"]),  -- 901, parser.y 3943
  ("non_reserved_keyword", ["LANGUAGE"]),  -- 902, parser.y 3944
  ("non_reserved_keyword", ["LAST_INSERT_ID"]),  -- 903, parser.y 3945
  ("non_reserved_keyword", ["LESS"]),  -- 904, parser.y 3946
  ("non_reserved_keyword", ["LEVEL"]),  -- 905, parser.y 3947
  ("non_reserved_keyword", ["LINESTRING"]),  -- 906, parser.y 3948
  ("non_reserved_keyword", ["LONGBLOB"]),  -- 907, parser.y 3949
  ("non_reserved_keyword", ["LONGTEXT"]),  -- 908, parser.y 3950
  ("non_reserved_keyword", ["MEDIUMBLOB"]),  -- 909, parser.y 3951
  ("non_reserved_keyword", ["MEDIUMINT"]),  -- 910, parser.y 3952
  ("non_reserved_keyword", ["MEDIUMTEXT"]),  -- 911, parser.y 3953
  ("non_reserved_keyword", ["MODE"]),  -- 912, parser.y 3954
  ("non_reserved_keyword", ["MONEY"]),  -- 913, parser.y 3955
  ("non_reserved_keyword", ["MULTILINESTRING"]),  -- 914, parser.y 3956
  ("non_reserved_keyword", ["MULTIPOINT"]),  -- 915, parser.y 3957
  ("non_reserved_keyword", ["MULTIPOLYGON"]),  -- 916, parser.y 3958
  ("non_reserved_keyword", ["NAMES"]),  -- 917, parser.y 3959
  ("non_reserved_keyword", ["NCHAR"]),  -- 918, parser.y 3960
  ("non_reserved_keyword", ["NO"]),  -- 919, parser.y 3961
  ("non_reserved_keyword", ["NOW"]),  -- 920, parser.y 3962
  ("non_reserved_keyword", ["NTEXT"]),  -- 921, parser.y 3963
  ("non_reserved_keyword", ["NUMERIC"]),  -- 922, parser.y 3964
  ("non_reserved_keyword", ["NVARCHAR"]),  -- 923, parser.y 3965
  ("non_reserved_keyword", ["OFFSET"]),  -- 924, parser.y 3966
  ("non_reserved_keyword", ["OPTIMIZE"]),  -- 925, parser.y 3967
  ("non_reserved_keyword", ["PARTITION"]),  -- 926, parser.y 3968
  ("non_reserved_keyword", ["POINT"]),  -- 927, parser.y 3969
  ("non_reserved_keyword", ["POLYGON"]),  -- 928, parser.y 3970
  ("non_reserved_keyword", ["PRECISION"]),  -- 929, parser.y 3971
  ("non_reserved_keyword", ["PERMISSIVE"]),  -- 930, parser.y 3972
  ("non_reserved_keyword", ["PRIMARY"]),  -- 931, parser.y 3973
  ("non_reserved_keyword", ["PROCEDURE"]),  -- 932, parser.y 3974
  ("non_reserved_keyword", ["QUERY"]),  -- 933, parser.y 3975
  ("non_reserved_keyword", ["READ"]),  -- 934, parser.y 3976
  ("non_reserved_keyword", ["REAL"]),  -- 935, parser.y 3977
  ("non_reserved_keyword", ["REORGANIZE"]),  -- 936, parser.y 3978
  ("non_reserved_keyword", ["RESTRICTIVE"]),  -- 937, parser.y 3979
  ("non_reserved_keyword", ["REPAIR"]),  -- 938, parser.y 3980
  ("non_reserved_keyword", ["REPEATABLE"]),  -- 939, parser.y 3981
  ("non_reserved_keyword", ["REPLICATION"]),  -- 940, parser.y 3982
  ("non_reserved_keyword", ["RESTRICT"]),  -- 941, parser.y 3983
  ("non_reserved_keyword", ["ROLLBACK"]),  -- 942, parser.y 3984
  ("non_reserved_keyword", ["SESSION"]),  -- 943, parser.y 3985
  ("non_reserved_keyword", ["SERIAL"]),  -- 944, parser.y 3986
  ("non_reserved_keyword", ["SERIALIZABLE"]),  -- 945, parser.y 3987
  ("non_reserved_keyword", ["SHARE"]),  -- 946, parser.y 3988
  ("non_reserved_keyword", ["SIGNED"]),  -- 947, parser.y 3989
  ("non_reserved_keyword", ["SMALLDATETIME"]),  -- 948, parser.y 3990
  ("non_reserved_keyword", ["SMALLINT"]),  -- 949, parser.y 3991
  ("non_reserved_keyword", ["SMALLMONEY"]),  -- 950, parser.y 3992
  ("non_reserved_keyword", ["SMALLSERIAL"]),  -- 951, parser.y 3993
  ("non_reserved_keyword", ["SPATIAL"]),  -- 952, parser.y 3994
  ("non_reserved_keyword", ["START"]),  -- 953, parser.y 3995
  ("non_reserved_keyword", ["STATUS"]),  -- 954, parser.y 3996
  ("non_reserved_keyword", ["TEXT"]),  -- 955, parser.y 3997
  ("non_reserved_keyword", ["THAN"]),  -- 956, parser.y 3998
  ("non_reserved_keyword", ["TIME"]),  -- 957, parser.y 3999
  ("non_reserved_keyword", ["TIMESTAMP"]),  -- 958, parser.y 4000
  ("non_reserved_keyword", ["TINYBLOB"]),  -- 959, parser.y 4001
  ("non_reserved_keyword", ["TINYINT"]),  -- 960, parser.y 4002
  ("non_reserved_keyword", ["TINYTEXT"]),  -- 961, parser.y 4003
  ("non_reserved_keyword", ["TRANSACTION"]),  -- 962, parser.y 4004
  ("non_reserved_keyword", ["TRIGGER"]),  -- 963, parser.y 4005
  ("non_reserved_keyword", ["TRUNCATE"]),  -- 964, parser.y 4006
  ("non_reserved_keyword", ["UNCOMMITTED"]),  -- 965, parser.y 4007
  ("non_reserved_keyword", ["UNSIGNED"]),  -- 966, parser.y 4008
  ("non_reserved_keyword", ["UNUSED"]),  -- 967, parser.y 4009
  ("non_reserved_keyword", ["UUID"]),  -- 968, parser.y 4010
  ("non_reserved_keyword", ["VARBINARY"]),  -- 969, parser.y 4011
  ("non_reserved_keyword", ["VARCHAR"]),  -- 970, parser.y 4012
  ("non_reserved_keyword", ["VARYING"]),  -- 971, parser.y 4013
  ("non_reserved_keyword", ["VARIABLES"]),  -- 972, parser.y 4014
  ("non_reserved_keyword", ["VIEW"]),  -- 973, parser.y 4015
  ("non_reserved_keyword", ["VINDEX"]),  -- 974, parser.y 4016
  ("non_reserved_keyword", ["VINDEXES"]),  -- 975, parser.y 4017
  ("non_reserved_keyword", ["VITESS_KEYSPACES"]),  -- 976, parser.y 4018
  ("non_reserved_keyword", ["VITESS_SHARDS"]),  -- 977, parser.y 4019
  ("non_reserved_keyword", ["VITESS_TABLETS"]),  -- 978, parser.y 4020
  ("non_reserved_keyword", ["VSCHEMA_TABLES"]),  -- 979, parser.y 4021
  ("non_reserved_keyword", ["WITH"]),  -- 980, parser.y 4022
  ("non_reserved_keyword", ["WITHOUT"]),  -- 981, parser.y 4023
  ("non_reserved_keyword", ["WRITE"]),  -- 982, parser.y 4024
  ("non_reserved_keyword", ["YEAR"]),  -- 983, parser.y 4025
  ("non_reserved_keyword", ["ZEROFILL"]),  -- 984, parser.y 4026
  ("non_reserved_keyword", ["ZONE"]),  -- 985, parser.y 4027
  ("non_reserved_keyword", ["PAD_INDEX"]),  -- 986, parser.y 4028
  ("non_reserved_keyword", ["FILLFACTOR"]),  -- 987, parser.y 4029
  ("non_reserved_keyword", ["IGNORE_DUP_KEY"]),  -- 988, parser.y 4030
  ("non_reserved_keyword", ["STATISTICS_NORECOMPUTE"]),  -- 989, parser.y 4031
  ("non_reserved_keyword", ["STATISTICS_INCREMENTAL"]),  -- 990, parser.y 4032
  ("non_reserved_keyword", ["ALLOW_ROW_LOCKS"]),  -- 991, parser.y 4033
  ("non_reserved_keyword", ["ALLOW_PAGE_LOCKS"]),  -- 992, parser.y 4034
  ("openb", ["'('"]),  -- 993, parser.y 4037
  ("closeb", ["')'"]),  -- 994, parser.y 4046
  ("force_eof", []),  -- 995, parser.y 4051
  ("ddl_force_eof", []),  -- 996, parser.y 4056
  ("ddl_force_eof", ["openb"]),  -- 997, parser.y 4060
  ("ddl_force_eof", ["reserved_sql_id"])  -- 998, parser.y 4064
]

/-- The rules of parser.y: left hand side and right hand side. -/
def grammar : List (String × List String) :=
  grammar0 ++ grammar100 ++ grammar200 ++ grammar300 ++ grammar400 ++ grammar500 ++ grammar600 ++ grammar700 ++ grammar800 ++ grammar900

end Sqldef.Spec
