import Verif.Base.WordTree
/-
The codes of the tokens of the grammar. Generated by tools/actions.py from /repo/sqlparser/parser.go.
-/
namespace Sqldef

/-- The constants of /repo/sqlparser/parser.go:110-401; the codes are the numbers from 57346 on. -/
def tokenNames : List String :=
  ["LEX_ERROR", "UNION", "SELECT", "STREAM", "INSERT", "UPDATE", "DELETE", "FROM", "WHERE", "GROUP",
   "HAVING", "ORDER", "BY", "LIMIT", "OFFSET", "FOR", "ALL", "DISTINCT", "AS", "EXISTS", "ASC", "DESC",
   "INTO", "DUPLICATE", "DEFAULT", "SET", "LOCK", "KEYS", "VALUES", "LAST_INSERT_ID", "NEXT", "VALUE",
   "SHARE", "MODE", "SQL_NO_CACHE", "SQL_CACHE", "JOIN", "STRAIGHT_JOIN", "LEFT", "RIGHT", "INNER", "OUTER",
   "CROSS", "NATURAL", "USE", "FORCE", "ON", "USING", "ID", "HEX", "STRING", "INTEGRAL", "FLOAT", "HEXNUM",
   "VALUE_ARG", "LIST_ARG", "COMMENT", "COMMENT_KEYWORD", "BIT_LITERAL", "NULL", "TRUE", "FALSE", "OFF",
   "OR", "AND", "NOT", "BETWEEN", "CASE", "WHEN", "THEN", "ELSE", "END", "LE", "GE", "NE", "NULL_SAFE_EQUAL",
   "IS", "LIKE", "REGEXP", "IN", "SHIFT_LEFT", "SHIFT_RIGHT", "DIV", "MOD", "UNARY", "COLLATE", "BINARY",
   "UNDERSCORE_BINARY", "INTERVAL", "JSON_EXTRACT_OP", "JSON_UNQUOTE_EXTRACT_OP", "CREATE", "ALTER", "DROP",
   "RENAME", "ANALYZE", "ADD", "SCHEMA", "TABLE", "INDEX", "VIEW", "TO", "IGNORE", "IF", "PRIMARY", "COLUMN",
   "CONSTRAINT", "REFERENCES", "SPATIAL", "FULLTEXT", "FOREIGN", "KEY_BLOCK_SIZE", "POLICY", "UNIQUE", "KEY",
   "SHOW", "DESCRIBE", "EXPLAIN", "DATE", "ESCAPE", "REPAIR", "OPTIMIZE", "TRUNCATE", "MAXVALUE",
   "PARTITION", "REORGANIZE", "LESS", "THAN", "PROCEDURE", "TRIGGER", "VINDEX", "VINDEXES", "STATUS",
   "VARIABLES", "RESTRICT", "CASCADE", "NO", "ACTION", "PERMISSIVE", "RESTRICTIVE", "PUBLIC", "CURRENT_USER",
   "SESSION_USER", "PAD_INDEX", "FILLFACTOR", "IGNORE_DUP_KEY", "STATISTICS_NORECOMPUTE",
   "STATISTICS_INCREMENTAL", "ALLOW_ROW_LOCKS", "ALLOW_PAGE_LOCKS", "BEFORE", "AFTER", "EACH", "ROW",
   "BEGIN", "START", "TRANSACTION", "COMMIT", "ROLLBACK", "BIT", "TINYINT", "SMALLINT", "SMALLSERIAL",
   "MEDIUMINT", "INT", "INTEGER", "SERIAL", "BIGINT", "BIGSERIAL", "INTNUM", "REAL", "DOUBLE", "PRECISION",
   "FLOAT_TYPE", "DECIMAL", "NUMERIC", "SMALLMONEY", "MONEY", "TIME", "TIMESTAMP", "DATETIME", "YEAR",
   "DATETIMEOFFSET", "DATETIME2", "SMALLDATETIME", "CHAR", "VARCHAR", "VARYING", "BOOL", "CHARACTER",
   "VARBINARY", "NCHAR", "NVARCHAR", "NTEXT", "UUID", "TEXT", "TINYTEXT", "MEDIUMTEXT", "LONGTEXT", "CITEXT",
   "BLOB", "TINYBLOB", "MEDIUMBLOB", "LONGBLOB", "JSON", "JSONB", "ENUM", "GEOMETRY", "POINT", "LINESTRING",
   "POLYGON", "GEOMETRYCOLLECTION", "MULTIPOINT", "MULTILINESTRING", "MULTIPOLYGON", "ARRAY", "NOW",
   "GETDATE", "BPCHAR", "NULLX", "AUTO_INCREMENT", "APPROXNUM", "SIGNED", "UNSIGNED", "ZEROFILL", "ZONE",
   "AUTOINCREMENT", "DATABASES", "TABLES", "VITESS_KEYSPACES", "VITESS_SHARDS", "VITESS_TABLETS",
   "VSCHEMA_TABLES", "EXTENDED", "FULL", "PROCESSLIST", "NAMES", "CHARSET", "GLOBAL", "SESSION", "ISOLATION",
   "LEVEL", "READ", "WRITE", "ONLY", "REPEATABLE", "COMMITTED", "UNCOMMITTED", "SERIALIZABLE",
   "CURRENT_TIMESTAMP", "DATABASE", "CURRENT_DATE", "CURRENT_TIME", "LOCALTIME", "LOCALTIMESTAMP",
   "UTC_DATE", "UTC_TIME", "UTC_TIMESTAMP", "REPLACE", "CONVERT", "CAST", "SUBSTR", "SUBSTRING",
   "GROUP_CONCAT", "SEPARATOR", "INHERIT", "MATCH", "AGAINST", "BOOLEAN", "LANGUAGE", "WITH", "WITHOUT",
   "PARSER", "QUERY", "EXPANSION", "UNUSED", "GENERATED", "ALWAYS", "IDENTITY", "SEQUENCE", "INCREMENT",
   "MINVALUE", "CACHE", "CYCLE", "OWNED", "NONE", "CLUSTERED", "NONCLUSTERED", "REPLICATION", "INCLUDE",
   "TYPECAST", "CHECK"]

/-- The same names as lists of characters (`tokenWords_eq`), /repo/sqlparser/parser.go:110-401. -/
def tokenWords : List Str :=
  [['L','E','X','_','E','R','R','O','R'], ['U','N','I','O','N'], ['S','E','L','E','C','T'],
   ['S','T','R','E','A','M'], ['I','N','S','E','R','T'], ['U','P','D','A','T','E'],
   ['D','E','L','E','T','E'], ['F','R','O','M'], ['W','H','E','R','E'], ['G','R','O','U','P'],
   ['H','A','V','I','N','G'], ['O','R','D','E','R'], ['B','Y'], ['L','I','M','I','T'],
   ['O','F','F','S','E','T'], ['F','O','R'], ['A','L','L'], ['D','I','S','T','I','N','C','T'], ['A','S'],
   ['E','X','I','S','T','S'], ['A','S','C'], ['D','E','S','C'], ['I','N','T','O'],
   ['D','U','P','L','I','C','A','T','E'], ['D','E','F','A','U','L','T'], ['S','E','T'], ['L','O','C','K'],
   ['K','E','Y','S'], ['V','A','L','U','E','S'], ['L','A','S','T','_','I','N','S','E','R','T','_','I','D'],
   ['N','E','X','T'], ['V','A','L','U','E'], ['S','H','A','R','E'], ['M','O','D','E'],
   ['S','Q','L','_','N','O','_','C','A','C','H','E'], ['S','Q','L','_','C','A','C','H','E'],
   ['J','O','I','N'], ['S','T','R','A','I','G','H','T','_','J','O','I','N'], ['L','E','F','T'],
   ['R','I','G','H','T'], ['I','N','N','E','R'], ['O','U','T','E','R'], ['C','R','O','S','S'],
   ['N','A','T','U','R','A','L'], ['U','S','E'], ['F','O','R','C','E'], ['O','N'], ['U','S','I','N','G'],
   ['I','D'], ['H','E','X'], ['S','T','R','I','N','G'], ['I','N','T','E','G','R','A','L'],
   ['F','L','O','A','T'], ['H','E','X','N','U','M'], ['V','A','L','U','E','_','A','R','G'],
   ['L','I','S','T','_','A','R','G'], ['C','O','M','M','E','N','T'],
   ['C','O','M','M','E','N','T','_','K','E','Y','W','O','R','D'],
   ['B','I','T','_','L','I','T','E','R','A','L'], ['N','U','L','L'], ['T','R','U','E'],
   ['F','A','L','S','E'], ['O','F','F'], ['O','R'], ['A','N','D'], ['N','O','T'],
   ['B','E','T','W','E','E','N'], ['C','A','S','E'], ['W','H','E','N'], ['T','H','E','N'], ['E','L','S','E'],
   ['E','N','D'], ['L','E'], ['G','E'], ['N','E'],
   ['N','U','L','L','_','S','A','F','E','_','E','Q','U','A','L'], ['I','S'], ['L','I','K','E'],
   ['R','E','G','E','X','P'], ['I','N'], ['S','H','I','F','T','_','L','E','F','T'],
   ['S','H','I','F','T','_','R','I','G','H','T'], ['D','I','V'], ['M','O','D'], ['U','N','A','R','Y'],
   ['C','O','L','L','A','T','E'], ['B','I','N','A','R','Y'],
   ['U','N','D','E','R','S','C','O','R','E','_','B','I','N','A','R','Y'], ['I','N','T','E','R','V','A','L'],
   ['J','S','O','N','_','E','X','T','R','A','C','T','_','O','P'],
   ['J','S','O','N','_','U','N','Q','U','O','T','E','_','E','X','T','R','A','C','T','_','O','P'],
   ['C','R','E','A','T','E'], ['A','L','T','E','R'], ['D','R','O','P'], ['R','E','N','A','M','E'],
   ['A','N','A','L','Y','Z','E'], ['A','D','D'], ['S','C','H','E','M','A'], ['T','A','B','L','E'],
   ['I','N','D','E','X'], ['V','I','E','W'], ['T','O'], ['I','G','N','O','R','E'], ['I','F'],
   ['P','R','I','M','A','R','Y'], ['C','O','L','U','M','N'], ['C','O','N','S','T','R','A','I','N','T'],
   ['R','E','F','E','R','E','N','C','E','S'], ['S','P','A','T','I','A','L'],
   ['F','U','L','L','T','E','X','T'], ['F','O','R','E','I','G','N'],
   ['K','E','Y','_','B','L','O','C','K','_','S','I','Z','E'], ['P','O','L','I','C','Y'],
   ['U','N','I','Q','U','E'], ['K','E','Y'], ['S','H','O','W'], ['D','E','S','C','R','I','B','E'],
   ['E','X','P','L','A','I','N'], ['D','A','T','E'], ['E','S','C','A','P','E'], ['R','E','P','A','I','R'],
   ['O','P','T','I','M','I','Z','E'], ['T','R','U','N','C','A','T','E'], ['M','A','X','V','A','L','U','E'],
   ['P','A','R','T','I','T','I','O','N'], ['R','E','O','R','G','A','N','I','Z','E'], ['L','E','S','S'],
   ['T','H','A','N'], ['P','R','O','C','E','D','U','R','E'], ['T','R','I','G','G','E','R'],
   ['V','I','N','D','E','X'], ['V','I','N','D','E','X','E','S'], ['S','T','A','T','U','S'],
   ['V','A','R','I','A','B','L','E','S'], ['R','E','S','T','R','I','C','T'], ['C','A','S','C','A','D','E'],
   ['N','O'], ['A','C','T','I','O','N'], ['P','E','R','M','I','S','S','I','V','E'],
   ['R','E','S','T','R','I','C','T','I','V','E'], ['P','U','B','L','I','C'],
   ['C','U','R','R','E','N','T','_','U','S','E','R'], ['S','E','S','S','I','O','N','_','U','S','E','R'],
   ['P','A','D','_','I','N','D','E','X'], ['F','I','L','L','F','A','C','T','O','R'],
   ['I','G','N','O','R','E','_','D','U','P','_','K','E','Y'],
   ['S','T','A','T','I','S','T','I','C','S','_','N','O','R','E','C','O','M','P','U','T','E'],
   ['S','T','A','T','I','S','T','I','C','S','_','I','N','C','R','E','M','E','N','T','A','L'],
   ['A','L','L','O','W','_','R','O','W','_','L','O','C','K','S'],
   ['A','L','L','O','W','_','P','A','G','E','_','L','O','C','K','S'], ['B','E','F','O','R','E'],
   ['A','F','T','E','R'], ['E','A','C','H'], ['R','O','W'], ['B','E','G','I','N'], ['S','T','A','R','T'],
   ['T','R','A','N','S','A','C','T','I','O','N'], ['C','O','M','M','I','T'],
   ['R','O','L','L','B','A','C','K'], ['B','I','T'], ['T','I','N','Y','I','N','T'],
   ['S','M','A','L','L','I','N','T'], ['S','M','A','L','L','S','E','R','I','A','L'],
   ['M','E','D','I','U','M','I','N','T'], ['I','N','T'], ['I','N','T','E','G','E','R'],
   ['S','E','R','I','A','L'], ['B','I','G','I','N','T'], ['B','I','G','S','E','R','I','A','L'],
   ['I','N','T','N','U','M'], ['R','E','A','L'], ['D','O','U','B','L','E'],
   ['P','R','E','C','I','S','I','O','N'], ['F','L','O','A','T','_','T','Y','P','E'],
   ['D','E','C','I','M','A','L'], ['N','U','M','E','R','I','C'], ['S','M','A','L','L','M','O','N','E','Y'],
   ['M','O','N','E','Y'], ['T','I','M','E'], ['T','I','M','E','S','T','A','M','P'],
   ['D','A','T','E','T','I','M','E'], ['Y','E','A','R'],
   ['D','A','T','E','T','I','M','E','O','F','F','S','E','T'], ['D','A','T','E','T','I','M','E','2'],
   ['S','M','A','L','L','D','A','T','E','T','I','M','E'], ['C','H','A','R'], ['V','A','R','C','H','A','R'],
   ['V','A','R','Y','I','N','G'], ['B','O','O','L'], ['C','H','A','R','A','C','T','E','R'],
   ['V','A','R','B','I','N','A','R','Y'], ['N','C','H','A','R'], ['N','V','A','R','C','H','A','R'],
   ['N','T','E','X','T'], ['U','U','I','D'], ['T','E','X','T'], ['T','I','N','Y','T','E','X','T'],
   ['M','E','D','I','U','M','T','E','X','T'], ['L','O','N','G','T','E','X','T'], ['C','I','T','E','X','T'],
   ['B','L','O','B'], ['T','I','N','Y','B','L','O','B'], ['M','E','D','I','U','M','B','L','O','B'],
   ['L','O','N','G','B','L','O','B'], ['J','S','O','N'], ['J','S','O','N','B'], ['E','N','U','M'],
   ['G','E','O','M','E','T','R','Y'], ['P','O','I','N','T'], ['L','I','N','E','S','T','R','I','N','G'],
   ['P','O','L','Y','G','O','N'], ['G','E','O','M','E','T','R','Y','C','O','L','L','E','C','T','I','O','N'],
   ['M','U','L','T','I','P','O','I','N','T'], ['M','U','L','T','I','L','I','N','E','S','T','R','I','N','G'],
   ['M','U','L','T','I','P','O','L','Y','G','O','N'], ['A','R','R','A','Y'], ['N','O','W'],
   ['G','E','T','D','A','T','E'], ['B','P','C','H','A','R'], ['N','U','L','L','X'],
   ['A','U','T','O','_','I','N','C','R','E','M','E','N','T'], ['A','P','P','R','O','X','N','U','M'],
   ['S','I','G','N','E','D'], ['U','N','S','I','G','N','E','D'], ['Z','E','R','O','F','I','L','L'],
   ['Z','O','N','E'], ['A','U','T','O','I','N','C','R','E','M','E','N','T'],
   ['D','A','T','A','B','A','S','E','S'], ['T','A','B','L','E','S'],
   ['V','I','T','E','S','S','_','K','E','Y','S','P','A','C','E','S'],
   ['V','I','T','E','S','S','_','S','H','A','R','D','S'],
   ['V','I','T','E','S','S','_','T','A','B','L','E','T','S'],
   ['V','S','C','H','E','M','A','_','T','A','B','L','E','S'], ['E','X','T','E','N','D','E','D'],
   ['F','U','L','L'], ['P','R','O','C','E','S','S','L','I','S','T'], ['N','A','M','E','S'],
   ['C','H','A','R','S','E','T'], ['G','L','O','B','A','L'], ['S','E','S','S','I','O','N'],
   ['I','S','O','L','A','T','I','O','N'], ['L','E','V','E','L'], ['R','E','A','D'], ['W','R','I','T','E'],
   ['O','N','L','Y'], ['R','E','P','E','A','T','A','B','L','E'], ['C','O','M','M','I','T','T','E','D'],
   ['U','N','C','O','M','M','I','T','T','E','D'], ['S','E','R','I','A','L','I','Z','A','B','L','E'],
   ['C','U','R','R','E','N','T','_','T','I','M','E','S','T','A','M','P'], ['D','A','T','A','B','A','S','E'],
   ['C','U','R','R','E','N','T','_','D','A','T','E'], ['C','U','R','R','E','N','T','_','T','I','M','E'],
   ['L','O','C','A','L','T','I','M','E'], ['L','O','C','A','L','T','I','M','E','S','T','A','M','P'],
   ['U','T','C','_','D','A','T','E'], ['U','T','C','_','T','I','M','E'],
   ['U','T','C','_','T','I','M','E','S','T','A','M','P'], ['R','E','P','L','A','C','E'],
   ['C','O','N','V','E','R','T'], ['C','A','S','T'], ['S','U','B','S','T','R'],
   ['S','U','B','S','T','R','I','N','G'], ['G','R','O','U','P','_','C','O','N','C','A','T'],
   ['S','E','P','A','R','A','T','O','R'], ['I','N','H','E','R','I','T'], ['M','A','T','C','H'],
   ['A','G','A','I','N','S','T'], ['B','O','O','L','E','A','N'], ['L','A','N','G','U','A','G','E'],
   ['W','I','T','H'], ['W','I','T','H','O','U','T'], ['P','A','R','S','E','R'], ['Q','U','E','R','Y'],
   ['E','X','P','A','N','S','I','O','N'], ['U','N','U','S','E','D'], ['G','E','N','E','R','A','T','E','D'],
   ['A','L','W','A','Y','S'], ['I','D','E','N','T','I','T','Y'], ['S','E','Q','U','E','N','C','E'],
   ['I','N','C','R','E','M','E','N','T'], ['M','I','N','V','A','L','U','E'], ['C','A','C','H','E'],
   ['C','Y','C','L','E'], ['O','W','N','E','D'], ['N','O','N','E'], ['C','L','U','S','T','E','R','E','D'],
   ['N','O','N','C','L','U','S','T','E','R','E','D'], ['R','E','P','L','I','C','A','T','I','O','N'],
   ['I','N','C','L','U','D','E'], ['T','Y','P','E','C','A','S','T'], ['C','H','E','C','K']]

set_option maxRecDepth 10000 in
theorem tokenWords_eq : tokenWords = tokenNames.map lit := by decide +kernel

/-- A part of `tokenTree`. -/
def tokenTreeLLL : WordTree Nat :=
  .node (.node (.node (.node (.node (.node .leaf 144703562 48 .leaf) 146800712 73 .leaf) 146800717 72 (.node .leaf 146800719 74 .leaf)) 148897866 103 (.node (.node (.node .leaf 165675082 79 .leaf) 165675088 46 .leaf) 167772239 136 (.node .leaf 167772245 101 .leaf))) 174063696 63 (.node (.node (.node (.node .leaf 176160834 18 .leaf) 176160842 76 .leaf) 188743747 12 (.node .leaf 299067338915906 20 .leaf)) 303465353969730 96 (.node (.node .leaf 303465374941250 64 .leaf) 303465374941254 71 (.node .leaf 303465377038414 83 .leaf)))) 307863431938134 44 (.node (.node (.node (.node (.node .leaf 312261451186256 62 .leaf) 338649742835778 16 .leaf) 365038028193863 15 (.node .leaf 373834100244564 25 .leaf)) 373834108633155 159 (.node (.node .leaf 373834119118922 164 .leaf) 373834121216079 65 (.node .leaf 382630201655365 82 .leaf))) 387028260749391 216 (.node (.node (.node (.node .leaf 387028260749395 153 .leaf) 391426286288969 49 .leaf) 395824332800076 114 (.node .leaf 617966278313152348227 200 .leaf)) 627189667942178488389 21 (.node (.node .leaf 636412960814196064339 242 .leaf) 636412995998601707606 194 (.node .leaf 645636346045211344974 33 .leaf))))

/-- A part of `tokenTree`. -/
def tokenTreeLLR : WordTree Nat :=
  .node (.node (.node (.node (.node (.node .leaf 645636385627617362005 178 .leaf) 645636390025676456015 285 .leaf) 645636390025676456027 225 (.node .leaf 645636412015879651396 67 .leaf)) 645636412015902720070 70 (.node (.node (.node .leaf 645636416413926162501 118 .leaf) 645636420812008325205 60 .leaf) 673306457757699801158 152 (.node .leaf 673306532524507267160 270 .leaf))) 700976573868293488717 26 (.node (.node (.node (.node .leaf 710199937109034270803 170 .leaf) 710199985487579447367 234 .leaf) 710199985487579447375 59 (.node .leaf 710199998681706397763 188 .leaf)) 719423370718567465031 7 (.node (.node .leaf 719423397106838143046 206 .leaf) 728646681182750113877 127 (.node .leaf 728646698774936158293 69 .leaf)))) 728646698774936158296 68 (.node (.node (.node (.node (.node .leaf 728646716367136882763 36 .leaf) 728646742755424337995 204 .leaf) 737870136782501183562 22 (.node .leaf 747093486829131792453 93 .leaf)) 765540169330162925658 181 (.node (.node .leaf 765540169330169217092 185 .leaf) 774763620531854901325 126 (.node .leaf 774763646920133967948 27 .leaf))) 783986935394105032781 38 (.node (.node (.node (.node .leaf 783986992568701288516 260 .leaf) 783987014558942232655 30 .leaf) 783987014558942232661 195 (.node .leaf 811657047106631237719 100 .leaf)) 811657091087094251604 115 (.node (.node .leaf 830103821966676852816 244 .leaf) 1295969207273625230709358667 205 (.node .leaf 1334654750490940634568851536 284 .leaf))))

/-- A part of `tokenTree`. -/
def tokenTreeLL : WordTree Nat :=
  .node tokenTreeLLL 645636376831524339789 77 tokenTreeLLR

/-- A part of `tokenTree`. -/
def tokenTreeLRL : WordTree Nat :=
  .node (.node (.node (.node (.node (.node .leaf 1353997591274842433370718276 282 .leaf) 1353997628168326182743310421 98 .leaf) 1353997628168330580840153156 283 (.node .leaf 1353997683508554005840134228 32 .leaf)) 1353997683508571598026178648 8 (.node (.node (.node .leaf 1353997692731974421191852103 61 .leaf) 1353997701955333263942746200 243 .leaf) 1353997711178718494901403735 31 (.node .leaf 1392683272842769176406786134 47 .leaf))) 1412025984499559216273424462 266 (.node (.node (.node (.node .leaf 1470054423840995445976334404 291 .leaf) 1489397255401648353265582157 241 .leaf) 1528082918522738663577616451 154 (.node .leaf 1528082973862979680818167894 1 .leaf)) 1566768655430906423824875592 9 (.node (.node .leaf 1605454097191103033962922063 191 .leaf) 1605454134084573589227438160 11 (.node .leaf 1605454134084617569684160586 40 .leaf)))) 1605454134084643957946449986 151 (.node (.node (.node (.node (.node .leaf 1605454134084643957959032898 92 .leaf) 1605454134084643957977907280 41 .leaf) 1624796947198447238405685327 236 (.node .leaf 1624797076325664550501220420 42 .leaf)) 1644139723418801953897971783 52 (.node (.node .leaf 1644139787982371027503022163 39 .leaf) 1644139797205769452636864589 13 (.node .leaf 1644139843322612044737282129 208 .leaf))) 1644139880216065007794782292 155 (.node (.node (.node (.node .leaf 1644139935556314821109481551 193 .leaf) 1721511012767577989990842442 99 .leaf) 1721511077331217432361041999 219 (.node .leaf 1740853788987985482026582082 215 .leaf)) 1740853825881456037253349454 177 (.node (.node .leaf 1740853945785235341758693462 84 .leaf) 1740853945785252933959417938 273 (.node .leaf 2677279576422089011381884575285332 97 .leaf))))

/-- A part of `tokenTree`. -/
def tokenTreeLRR : WordTree Nat :=
  .node (.node (.node (.node (.node (.node .leaf 2798973879301577133596967379664980 222 .leaf) 2798973879301623250518724315185238 275 .leaf) 2839538833908461590880459855757381 171 (.node .leaf 2839538853251265481311703449731155 94 .leaf)) 2839538911279704822765525353365574 119 (.node (.node .leaf 2839538949965460177655369020997699 150 .leaf) 2839538949965460177690553397280842 102 (.node .leaf 2839538988650957278106190574780502 5 .leaf))) 2839538988650957278110588625485892 91 (.node (.node (.node (.node .leaf 2839538988650994171629522342903877 6 .leaf) 2839539007993917965914837274853462 113 .leaf) 2920668511008759063835446305882196 50 (.node .leaf 2920668511008759063853038452080713 10 .leaf)) 3123492355588640724614598340116552 238 (.node (.node .leaf 3123492355588705288232050448400468 166 .leaf) 3164057174795971735591797563326548 3 (.node .leaf 3164057561652317022630261242724426 169 .leaf)))) 3164057561652317022647853409894473 53 (.node (.node (.node (.node (.node .leaf 3204622226117180016374694996344900 105 .leaf) 3204622264802695563613570676555842 137 .leaf) 3285752077302583376270638819835987 78 (.node .leaf 3366881270832516109881409934458947 218 .leaf)) 3366881348203870022376053184397393 272 (.node (.node .leaf 3366881425574956457006860894994515 120 .leaf) 3366881638346066729816686411645012 261 (.node .leaf 3407446167411108799549320959361109 228 .leaf))) 3407446167411191809941633117454423 28 (.node (.node (.node (.node .leaf 3407446457553370070695367246086214 19 .leaf) 3407446476896192407866286515683412 132 .leaf) 3407446554267269619230610462605378 277 (.node .leaf 3448010947932721349168804361404500 2 .leaf)) 3448010986618476704019065641893968 14 (.node (.node .leaf 3448011063989673819153898038886468 157 .leaf) 3448011160703702494809696304627779 167 (.node .leaf 3448011238074918056710592635338826 4 .leaf))))

/-- A part of `tokenTree`. -/
def tokenTreeLR : WordTree Nat :=
  .node tokenTreeLRL 2758409137465507801319276141346897 140 tokenTreeLRR

/-- A part of `tokenTree`. -/
def tokenTreeL : WordTree Nat :=
  .node tokenTreeLL 1353997545158048219823865927 45 tokenTreeLR

/-- A part of `tokenTree`. -/
def tokenTreeRLL : WordTree Nat :=
  .node (.node (.node (.node (.node (.node .leaf 3610270263447551716865275208925271 130 .leaf) 3650835043969274946896424314339409 112 .leaf) 3650835334111397867439927486054467 86 (.node .leaf 5784803239454180673458675683704902254671 175 .leaf)) 5954944179525405833611946338370340257875 258 (.node (.node (.node .leaf 5954944220090225040832276851127280992324 135 .leaf) 5954944220090611897177563810426163036234 289 .leaf) 5954944869127332357694953793874231820360 217 (.node .leaf 5954944869127332357768740734984718909508 85 .leaf))) 5954945112516711829103517791576307793986 95 (.node (.node (.node (.node .leaf 6125085809199041088305197486735311765591 187 .leaf) 6550438240507564472644867788445455482964 108 .leaf) 6550438240507641843795866041103304097861 174 (.node .leaf 6550438240507738557972115750646320201807 43 .leaf)) 6720579423967956333050312841171969245251 268 (.node (.node .leaf 6720579586227233162365133347145593651267 66 .leaf) 6720579667356948948058249673742321975367 110 (.node .leaf 6720579748486432620224584292458874011718 117 .leaf)))) 6720579991875463921043216203113568403537 210 (.node (.node (.node (.node (.node .leaf 6720579991875502606614103669812334952532 239 .leaf) 7060861790888952824870018615666540544087 186 .leaf) 7060861953148210311288714926047585370186 165 (.node .leaf 7060861953148210311307161621742791688277 129 .leaf)) 7231003136608911656897671991481228853316 237 (.node (.node .leaf 7231003298868169143178017743299669917770 265 .leaf) 7231003420562684793490488292240032530501 24 (.node .leaf 7231003501692013723198029138188916752452 56 .leaf))) 7231003501692091094561164943296389185621 160 (.node (.node (.node (.node .leaf 7231003663951290552494402882496666533956 259 .leaf) 7231003704516283844995864343338593288258 267 .leaf) 7231003785645941602406436584720426860632 271 (.node .leaf 7656356622602386260488155435197276356689 104 .leaf)) 11953206232062875915007345761586974853938806861 203 (.node (.node .leaf 11953206232062875915007345927607671517312188501 201 .leaf) 12310017304533124064604213907705338018725363782 233 (.node .leaf 12310017304533529712660887286210462245535613014 223 .leaf))))

/-- A part of `tokenTree`. -/
def tokenTreeRLR : WordTree Nat :=
  .node (.node (.node (.node (.node (.node .leaf 12488423095980591237285255785157132934254166100 279 .leaf) 12488423436262430815883509185794841096098938957 269 .leaf) 12488423946686305715825519976022983647546048581 180 (.node .leaf 12488423946686305715825520215830581839019376726 256 .leaf)) 12488424457109531578331386071415610289443307589 250 (.node (.node .leaf 12488424542180123308585344870276937091374907477 122 .leaf) 12488424542180123308604687840188016619868389462 255 (.node .leaf 12488424627251161251792555520429193163748409422 281 .leaf))) 12488424627251161251792555520429237144196743246 123 (.node (.node (.node (.node .leaf 12488425052603998208740126577087107480676204624 121 .leaf) 12845236295215429818922283453479584454871613517 55 .leaf) 13558858865509533805371246796461359135717326931 158 (.node .leaf 13737264656957284932057538968755257778787844170 51 .leaf)) 13737264656957447191547139126370824091546419274 88 (.node (.node .leaf 13737265592733428881246105042087674671267840091 224 .leaf) 14807700426486349194581809279882316835113140303 192 (.node .leaf 14986106728357610137798560839992194263171465303 131 .leaf)))) 15164512519804063190424962022427176470036086867 134 (.node (.node (.node (.node (.node .leaf 15164512519804266014346913221106909341399646277 17 .leaf) 15164513455580572222889679594237287046968246356 161 .leaf) 15164513880933206355335015114140718292239646805 290 (.node .leaf 15164514306286327266113751498104283573075837005 198 .leaf)) 15164514306286327266113751544221134961269276743 109 (.node (.node .leaf 15164514306286327266113751664124980236449218645 196 .leaf) 16056543603804610282365452442693750920426029128 207 (.node .leaf 16056543773945347530113546043562566855098892362 278 .leaf))) 19081377865416215186373025001463767127611502827143237 183 (.node (.node (.node (.node .leaf 25815977410237441186251996606870644264266665721593924 286 .leaf) 25815977410237611327273197760587407233271367697694792 276 .leaf) 25815977410237611328043929151440926471846658901540932 246 (.node .leaf 26190122364610761039008882196008337987935537784160340 35 .leaf)) 26190123256641079404554921004156068755197054316183629 253 (.node (.node .leaf 26190124148671908192231572238258662981345880525766737 128 .leaf) 26190124505482129956846373068676870595523608204804165 23 (.node .leaf 26938412273360463286839063287120616092116794535313492 262 .leaf))))

/-- A part of `tokenTree`. -/
def tokenTreeRL : WordTree Nat :=
  .node tokenTreeRLL 12488423010909796683206059807068396604845195333 116 tokenTreeRLR

/-- A part of `tokenTree`. -/
def tokenTreeRRL : WordTree Nat :=
  .node (.node (.node (.node (.node (.node .leaf 28809132049866518374954972863140561294357779846266947 168 .leaf) 29183280037142886640116859107782124549482409791324226 221 .leaf) 29557423385863402904545616246070152959260881911283793 172 (.node .leaf 29557423385863402904545616342784200081735520702431302 274 .leaf)) 29557423385863402904586180910535034399828554211655754 240 (.node (.node (.node .leaf 29557423385863402904586181065277613097490577514037329 124 .leaf) 30305711867364221457482655751557923679703892259504213 179 .leaf) 31053999278431567386196333510629469226014187930517572 189 (.node .leaf 31054001062491013128071196729736121822571711420170317 0 .leaf))) 31054001062491183268565055523899990494107799084073044 264 (.node (.node (.node (.node .leaf 31428143697587597968482070131670524578709783705550935 133 .leaf) 31428143697588193462583616974117021470291462847463493 227 .leaf) 31802289722397367916051181085758219971806193004838986 280 (.node .leaf 31802289722397708198418102333706610157414759832485966 163 .leaf)) 33298865793370473139535722825850788009625020371304529 143 (.node (.node .leaf 33673012531804429722005482158892991809403465760768087 190 .leaf) 52570756965430721198758528904668047182071851165762776465486 202 (.node .leaf 54924668993765684955362556000312760683501435659456926974035 245 .leaf)))) 54924670490347464920940015564631908452337463152513038417991 173 (.node (.node (.node (.node (.node .leaf 54924672735211125365736414927221417058269776830062319894609 138 .leaf) 54924674231788801992155649478976728263374124615203031089235 125 .leaf) 56493945175902442302921115250711574278842589978645978153037 209 (.node .leaf 65124960436205509974207883815916552286302727667244154748999 144 .leaf)) 65909594411681620602164663398929179694376357541620681277523 107 (.node (.node .leaf 66694232502749731666108320498168588587040593172787286245460 80 .leaf) 66694235495905798542708072922880424663625134841108788936772 106 (.node .leaf 66694235495905798543899061125973858100205235459836998582350 212 .leaf))) 66694239237349276487589531584423448281980145628274055184462 197 (.node (.node (.node (.node .leaf 70617420713223593640704047077420056867139568193662191927380 176 .leaf) 113539869379835203832942390637342525923862594262001241032214184022 247 .leaf) 115185387275993481983183258637911026528059724995417587436908183635 139 (.node .leaf 126703902699849868887874226093830343281095210106432953778641567828 162 .leaf)) 126703902699853236185327360269565170069557238851645262637819756611 58 (.node (.node .leaf 129994922799420317899232312754470008916637672753014905127980499027 288 .leaf) 129994922799420317899232312924611111247661918027605531825851596885 156 (.node .leaf 139867944650882787398015681939934746745875525014153985110440935508 81 .leaf))))

/-- A part of `tokenTree`. -/
def tokenTreeRRR : WordTree Nat :=
  .node (.node (.node (.node (.node (.node .leaf 238110364149658588107616789414808614667592071965978264689098059277140047 287 .leaf) 241561242259555772397701863074895312219152680447014158619466999357505620 34 .leaf) 241561248841573217044809112463011807951371697591600038549768562725093460 248 (.node .leaf 241561250487083266837142362819657602336425320266771191685454073507610692 252 .leaf)) 241561262005608890977862960517170666095493354404700253516557953217331268 251 (.node (.node .leaf 272619112338648349249447720545721483245568996305559850050083139855843406 214 .leaf) 286422588577193319263363316454815802778882825113070645580358521846759508 142 (.node .leaf 286422588577193319263363316454816313202392641624187275622709072947576900 141 .leaf))) 293324328341953099559884116547095127205884738146607886237059784521023560 263 (.node (.node (.node (.node .leaf 506590659581487647214046770744215681979443291951315506355460270688115212943444 184 .leaf) 571723695973995186578175434736865382528242678575072981145957816957855074353236 37 .leaf) 586197720932129367531293258527370570980659030075720054584214898509928745402454 257 (.node .leaf 607908706606295567178242114525685328079696980074011543233305600002640654106711 230 .leaf)) 615145746692338171795204714064606204373557048752719720874954000049786352304194 226 (.node (.node .leaf 1047220485254176083844440167721914902419197937859917288466476786974362190898240946253 29 .leaf) 1062397709003708487647995910854454792118620505126535490250054955966558946296049172556 111 (.node .leaf 1229345722848256967376986719707192247673231046241356463911027929372284422168623710285 254 .leaf)))) 1274876967113790833393852148308451857651628546915307914998885514591785652198630752343 232 (.node (.node (.node (.node (.node .leaf 1274877075668850337282026637290836950249982536534735300843040409842135436402098176087 231 .leaf) 1290054067834328497879206233581238158813851336525901393588593746025142264593509253189 182 .leaf) 1290054132967330381656657156510017030714413911905863668072661016076114028793891389506 220 (.node .leaf 1365939571436868432767748173840791692234682965769800935595433740805496737633176387658 145 .leaf)) 2196180671685556575129226000486308780908491505723027271890576403623847711711117866344382532 57 (.node (.node .leaf 2291666672367789306318307558229541743704609952848415023570030379635076909027685802681827406 213 .leaf) 2450809910716698509195898201669287952952668549503232783733799869024000694808721871513583695 75 (.node .leaf 2578124871717086346842919127862313070618492397440345567090626977024422889464169784833736779 89 .leaf))) 2673610872399159863909299398873914980014694852975127086953615046306360173397078183172374594 148 (.node (.node (.node (.node .leaf 5606968197301520125457726401001266536320959121938136989811789543444245000754734893152559735767127 229 .leaf) 5606968388273642906917115052947228548153653858408715302784004940191930003826137954607684825120834 149 .leaf) 11338712963745634567806026491171980549208250074585772303469848745129401255113052738703656554147371548740 249 (.node .leaf 12598569714968623798795725471520724868532320549886175146539245527348528972973700074860511962001529897046 87 .leaf)) 23191869203620253487155680223184239394151751843255335534482335277066765217726648723613185266393875793349443656 211 (.node (.node .leaf 397490157502517149076739592597554472464773471043421822280046160901489596722909839078177787002843340909650000498054682749540767952273492 146 .leaf) 437239098791412144645178415011097769918102607329687674352115422069953620665881330764163164786954070981161591891785629944098025285615700 147 (.node .leaf 964591032642059709523445904147212350108889542961134098159337730233788317052281673859602683920240355497653918794551007982768178945210963722315 90 .leaf))))

/-- A part of `tokenTree`. -/
def tokenTreeRR : WordTree Nat :=
  .node tokenTreeRRL 139867953281898421844075263606274163850562041131718222161811341393 235 tokenTreeRRR

/-- A part of `tokenTree`. -/
def tokenTreeR : WordTree Nat :=
  .node tokenTreeRL 26938412986983629075612504298889439237949179926937687 54 tokenTreeRR

/-- The constants and their places, /repo/sqlparser/parser.go:110-401, as a search tree (`tokenTree_eq`). -/
def tokenTree : WordTree Nat :=
  .node tokenTreeL 3448011354131796739719391443157060 199 tokenTreeR

/-- The code of a constant, /repo/sqlparser/parser.go:110-401. -/
def codeOfName (name : Str) : Nat := 57346 + (tokenTree.find (wordKey name)).getD tokenNames.length

/-- The tree holds the constants with their places. -/
theorem tokenTree_eq (name : Str) :
    tokenTree.find (wordKey name) = (tokenWords.zipIdx.find? fun p => decide (p.1 = name)).map fun p => p.2 :=
  WordTree.find_eq (by decide +kernel) (by decide +kernel) name

end Sqldef
