{"id": "C01", "title": "Dry run executes nothing", "statement": "Running the command with --dry-run never begins a transaction and never executes a statement on the database, whatever the schemas are and whatever the database answers.", "quantifier": "every option set with dry-run on, every dump outcome, every desired file, every generator result, every database behaviour", "why_tests_cant": "a test observes one schema pair; the claim is about every schema, every error path and every database response", "anchors": ["sqldef.go:Run", "sqldef.go:showDDLs", "adapter/database.go:RunDDLs"]}
{"id": "C02", "title": "Export is read-only and ignores the desired schema", "statement": "With --export the command prints the dump of the database (or the no-table message) and does nothing else: it neither reads the SQL file nor executes anything, and the output does not depend on the file.", "quantifier": "every option set with export on, every dump, every desired file", "why_tests_cant": "needs to hold for all dumps and all files, including unreadable or invalid ones", "anchors": ["sqldef.go:Run", "adapter/database.go:DumpDDLs"]}
{"id": "C03", "title": "Skip-drop never executes a destructive statement", "statement": "With --skip-drop no statement whose text contains DROP reaches the database, and every statement by which the tool itself drops a table, column, index, constraint, primary key, default, view, policy, trigger or identity does contain DROP; so none of them is executed. All the other statements are still executed, in order.", "quantifier": "every list of generated statements for every pair of schemas and every dialect", "why_tests_cant": "tests cover a few statements; the claim ranges over every statement the generator can produce with every possible identifier", "anchors": ["adapter/database.go:RunDDLs", "schema/generator.go:generateDDLs", "schema/generator.go:generateDropIndex"]}
{"id": "C04", "title": "Statements are executed in order and stop at the first failure", "statement": "When applying, the statements executed on the database are exactly a prefix of the (non-skipped) generated list, in the generated order; nothing is executed after a failing statement.", "quantifier": "every list of statements and every pattern of database failures", "why_tests_cant": "the failure may occur at any position of a list of any length", "anchors": ["adapter/database.go:RunDDLs"]}
{"id": "C05", "title": "All or nothing on failure", "statement": "If a statement fails, the transaction is rolled back, never committed, and the error is reported; if none fails the transaction is committed exactly once after the last statement. On a transactional database this leaves the schema either fully updated or unchanged.", "quantifier": "every list of statements, every failure position, every database state", "why_tests_cant": "every crash point in an unbounded list", "anchors": ["adapter/database.go:RunDDLs"]}
{"id": "C06", "title": "A reported success means that the change was committed", "statement": "If the command reports success after applying, every statement was executed and the commit succeeded.", "quantifier": "every list of statements and every database behaviour, including a failing COMMIT", "why_tests_cant": "a failing COMMIT cannot be produced by a unit test against a healthy server; the code discards the commit error", "anchors": ["adapter/database.go:RunDDLs", "sqldef.go:Run"]}
{"id": "C07", "title": "Dry run shows exactly what apply would do", "statement": "The statements printed by a dry run are the same, in the same order and with the same skip annotations, as those printed and executed by a successful apply with the same inputs and options.", "quantifier": "every list of generated statements, with and without skip-drop", "why_tests_cant": "equality of two code paths for all inputs", "anchors": ["sqldef.go:showDDLs", "adapter/database.go:RunDDLs"]}
{"id": "C08", "title": "Invalid input changes nothing", "statement": "If the dump fails, the desired file cannot be read, either schema does not parse, or the generator reports an error, the command exits with an error and executes nothing.", "quantifier": "every failure point before application", "why_tests_cant": "every combination of failing step", "anchors": ["sqldef.go:Run", "schema/generator.go:GenerateIdempotentDDLs"]}
{"id": "C09", "title": "Nothing to do means nothing done", "statement": "If no statement is generated the command reports that nothing is modified and does not open a transaction.", "quantifier": "every pair of schemas for which the difference is empty, every option set", "why_tests_cant": "quantifies over all schema pairs", "anchors": ["sqldef.go:Run"]}
{"id": "C10", "title": "The dump contains every object, in order", "statement": "A successful dump consists of the definitions of all tables in the order the database lists them, then all views, then all triggers, separated by a semicolon and a blank line; if any of them cannot be read the dump fails as a whole.", "quantifier": "every database content and every failure position", "why_tests_cant": "lists of any length and failure at any object", "anchors": ["adapter/database.go:DumpDDLs"]}
{"id": "C11", "title": "Concatenated statements are split back", "statement": "Reading a dump or a file formed by joining statements with semicolons yields those statements, trimmed of surrounding white space, in order and without empty ones, provided none contains a semicolon or a line starting with two dashes.", "quantifier": "every list of statements and every separator padding", "why_tests_cant": "all lists of all strings", "anchors": ["schema/parser.go:parseDDLs", "adapter/database.go:DumpDDLs"]}
{"id": "C12", "title": "No statement is silently ignored", "statement": "Every non-blank piece of the input between semicolons is either turned into exactly one schema definition carrying that text, or the whole input is rejected with an error.", "quantifier": "every input text and every behaviour of the SQL parser", "why_tests_cant": "quantifies over all inputs", "anchors": ["schema/parser.go:parseDDLs", "schema/parser.go:parseDDL"]}
{"id": "C13", "title": "Comment lines have no effect", "statement": "Lines starting with two dashes can be inserted before, between and after statements without changing the result.", "quantifier": "every input text and every comment text", "why_tests_cant": "all inputs, all comment positions", "anchors": ["schema/parser.go:parseDDLs"]}
{"id": "C14", "title": "Semicolons inside literals are respected", "statement": "A semicolon inside a string literal or a trigger body does not end the statement.", "quantifier": "every statement with a semicolon inside a literal", "why_tests_cant": "the splitter knows nothing about literals, so this fails; a passing test on other inputs cannot show it", "anchors": ["schema/parser.go:parseDDLs"]}
{"id": "C15", "title": "Postgres table names are schema-qualified uniquely", "statement": "For Postgres an unqualified table name means the table of that name in schema public, and different (schema, table) pairs get different names.", "quantifier": "every schema name and table name", "why_tests_cant": "injectivity over all names", "anchors": ["schema/parser.go:normalizedTableName"]}
{"id": "C16", "title": "Numbers, lengths and options are read faithfully", "statement": "Integer defaults, lengths and sequence parameters inside the 64-bit range are read as the number that is written, and printing them back gives the same number.", "quantifier": "every integer in the 64-bit range", "why_tests_cant": "2^64 values", "anchors": ["schema/parser.go:parseValue", "schema/parser.go:parseLength", "schema/generator.go:generateDefaultDefinition"]}
{"id": "C17", "title": "The charset of a table is detected correctly", "statement": "COLLATE binary on a column stands for <charset>_bin of the charset given in the table options.", "quantifier": "every charset name", "why_tests_cant": "the code trims a character set instead of a prefix; only some names reveal it", "anchors": ["schema/parser.go:detectCharset", "schema/parser.go:normalizeCollate"]}
{"id": "C18", "title": "A schema compared with itself yields nothing", "statement": "If the desired schema and the current schema are the same list of definitions, no statement is generated.", "quantifier": "every schema in dump-normal form, every dialect", "why_tests_cant": "all schemas of all sizes", "anchors": ["schema/generator.go:GenerateIdempotentDDLs", "schema/generator.go:generateDDLs"]}
{"id": "C19", "title": "Applying once is enough", "statement": "After the generated statements have been applied successfully, generating again with the same desired schema yields nothing.", "quantifier": "every current and desired schema, every dialect", "why_tests_cant": "depends on the interaction of all comparison functions with the effect of all statements on all schemas", "anchors": ["schema/generator.go:generateDDLs", "schema/generator.go:generateDDLsForCreateTable"]}
{"id": "C20", "title": "The generated script runs without failing and reaches the desired schema", "statement": "Executed in order against the current schema, no generated statement creates something that exists or drops or alters something that does not exist, and afterwards the schema has exactly the tables, columns, indexes, foreign keys, policies and views of the desired schema.", "quantifier": "every current and desired schema, every dialect", "why_tests_cant": "quantifies over all pairs of schemas and all intermediate states", "anchors": ["schema/generator.go:generateDDLs", "schema/generator.go:generateDDLsForCreateTable", "schema/generator.go:generateDDLsForCreateIndex"]}
{"id": "C21", "title": "Missing tables are created with the user's own statement", "statement": "For a table of the desired schema that does not exist, the tool emits the user's CREATE TABLE statement verbatim, exactly once, and no other statement for its columns.", "quantifier": "every pair of schemas", "why_tests_cant": "all schema pairs", "anchors": ["schema/generator.go:generateDDLs"]}
{"id": "C22", "title": "A table is dropped exactly when the desired schema does not define it", "statement": "DROP TABLE is emitted for a table if and only if it exists and the desired schema has no CREATE TABLE for it.", "quantifier": "every pair of schemas, every dialect", "why_tests_cant": "both directions for all schemas", "anchors": ["schema/generator.go:generateDDLs", "schema/generator.go:removeTableByName"]}
{"id": "C23", "title": "A column that is wanted is never dropped", "statement": "DROP COLUMN is emitted only for a column which exists in a table that stays and that the desired definition of the table lacks, and it is emitted for each such column.", "quantifier": "every pair of schemas, every dialect", "why_tests_cant": "all schemas; loss of data if violated", "anchors": ["schema/generator.go:generateDDLs", "schema/generator.go:generateDDLsForAbsentColumn", "schema/generator.go:generateDDLsForCreateTable"]}
{"id": "C24", "title": "Every missing column is added exactly once, at the right place", "statement": "A column of the desired table that the current table lacks is added exactly once, with a definition naming it; for MySQL it is placed first or after its predecessor in the desired table.", "quantifier": "every pair of table definitions", "why_tests_cant": "all tables of any width", "anchors": ["schema/generator.go:generateDDLsForCreateTable"]}
{"id": "C25", "title": "An index that is wanted is not left dropped", "statement": "An index present in the desired schema is never dropped without being created again immediately afterwards, an obsolete secondary index is always dropped, and an index implied by a desired foreign key or unique column is kept.", "quantifier": "every pair of schemas, every dialect", "why_tests_cant": "all schemas", "anchors": ["schema/generator.go:generateDDLsForCreateIndex", "schema/generator.go:generateDDLsForAbsentIndex"]}
{"id": "C26", "title": "Dependency order of removals", "statement": "Within the clean-up of a table, foreign keys are dropped before indexes, indexes before columns, and columns before policies; additions for a table (columns, primary key, indexes, foreign keys) come in this order and before the removals.", "quantifier": "every pair of schemas", "why_tests_cant": "relative order in lists of any length", "anchors": ["schema/generator.go:generateDDLs", "schema/generator.go:generateDDLsForCreateTable"]}
{"id": "C27", "title": "AUTO_INCREMENT is set only when a key exists", "statement": "For MySQL, AUTO_INCREMENT is removed before the primary key is dropped and added only after the primary key and the indexes have been added; ADD COLUMN never carries AUTO_INCREMENT.", "quantifier": "every pair of MySQL tables", "why_tests_cant": "relative order in all generated scripts", "anchors": ["schema/generator.go:generateDDLsForCreateTable"]}
{"id": "C28", "title": "Column order of MySQL tables is reached", "statement": "For MySQL, after application the columns are in the order of the desired table; repeated application reaches this order.", "quantifier": "every permutation of columns combined with additions and removals", "why_tests_cant": "the repositioning criterion is a heuristic; only exhaustive reasoning shows for which inputs it works", "anchors": ["schema/generator.go:generateDDLsForCreateTable"]}
{"id": "C29", "title": "Unrelated tables are not touched", "statement": "If a table is defined identically (as far as the comparisons see) in both schemas, no generated statement is about that table; and what is generated for one table does not depend on the other tables.", "quantifier": "every pair of schemas and every unchanged table", "why_tests_cant": "non-interference over all schemas", "anchors": ["schema/generator.go:generateDDLs"]}
{"id": "C30", "title": "Order of table definitions does not matter", "statement": "Permuting the CREATE TABLE statements of the desired or current schema permutes the generated statements but does not change which statements are generated.", "quantifier": "every permutation of every schema", "why_tests_cant": "all permutations", "anchors": ["schema/generator.go:generateDDLs"]}
{"id": "C31", "title": "References to undefined tables and double definitions are errors", "statement": "An index or policy for a table that is not defined before it, or a second definition of the same index, foreign key, policy or view, makes the generation fail instead of producing statements.", "quantifier": "every schema containing such a definition at any position", "why_tests_cant": "any position in any list", "anchors": ["schema/generator.go:generateDDLsForCreateIndex", "schema/generator.go:generateDDLsForAddForeignKey", "schema/generator.go:generateDDLsForCreatePolicy", "schema/generator.go:generateDDLsForCreateView"]}
{"id": "C32", "title": "The generator does not crash", "statement": "Generation ends with a list of statements or an error; it never panics and never terminates the process.", "quantifier": "every pair of parsed schemas", "why_tests_cant": "all inputs, including nil values and empty lists", "anchors": ["schema/generator.go:generateIndexOptionDefinition", "schema/generator.go:removeTableByName", "schema/generator.go:generateColumnDefinition"]}
{"id": "C33", "title": "Comparisons are reflexive", "statement": "Every definition (column, default, check, identity, index, primary key, foreign key, policy, trigger) compared with itself counts as unchanged.", "quantifier": "every definition, every dialect", "why_tests_cant": "all values of the definition types", "anchors": ["schema/generator.go:haveSameColumnDefinition", "schema/generator.go:areSameIndexes", "schema/generator.go:areSamePolicies"]}
{"id": "C34", "title": "Comparisons detect differences", "statement": "If two definitions differ in an attribute that the tool can change, they count as different.", "quantifier": "every pair of definitions, every attribute", "why_tests_cant": "all pairs; several comparison functions ignore attributes", "anchors": ["schema/generator.go:haveSameDataType", "schema/generator.go:areSameForeignKeys", "schema/generator.go:areSameIndexes", "schema/generator.go:areSameValue"]}
{"id": "C35", "title": "Type aliases are equivalent", "statement": "Two type names count as the same type exactly if they are equal after replacing the documented aliases; this is an equivalence relation and replacing an alias twice changes nothing.", "quantifier": "every pair of type names, every dialect", "why_tests_cant": "all strings", "anchors": ["schema/generator.go:normalizeDataType", "schema/generator.go:haveSameDataType"]}
{"id": "C36", "title": "Names are quoted so that they are read back as the same name", "statement": "In every generated statement a table, column, index or constraint name is quoted in the dialect's quotes, and reading the quoted text back yields exactly that name, if the name does not contain the quote character; different names give different texts.", "quantifier": "every name, every dialect, every following text", "why_tests_cant": "all strings", "anchors": ["schema/generator.go:escapeSQLName", "schema/generator.go:escapeTableName", "sqlparser/token.go:scanLiteralIdentifier"]}
{"id": "C37", "title": "String defaults are quoted correctly", "statement": "A string default value printed into a statement is read back by the SQL scanner as the same string.", "quantifier": "every string value", "why_tests_cant": "the code prints without escaping; fails for values with quotes or backslashes", "anchors": ["schema/generator.go:generateDefaultDefinition", "sqlparser/token.go:scanString"]}
{"id": "C38", "title": "Views are created, replaced and dropped as needed", "statement": "A view is dropped exactly when the desired schema does not define it or (SQLite, SQL Server) immediately before it is created anew; created when missing; replaced exactly when the definitions differ up to letter case.", "quantifier": "every pair of schemas, every dialect", "why_tests_cant": "all view lists", "anchors": ["schema/generator.go:generateDDLsForCreateView", "schema/generator.go:generateDDLs"]}
{"id": "C39", "title": "Triggers are created and replaced as needed", "statement": "For MySQL and SQL Server a trigger of the desired schema is created when missing and recreated when it differs; no trigger is dropped otherwise. For Postgres and SQLite triggers are never touched.", "quantifier": "every pair of schemas, every dialect", "why_tests_cant": "all trigger lists", "anchors": ["schema/generator.go:generateDDLsForCreateTrigger", "schema/generator.go:areSameTriggerDefinition"]}
{"id": "C40", "title": "Policies are created, replaced and dropped as needed", "statement": "A row-level security policy of the desired schema is created when missing and recreated when it differs; a policy that the desired schema lacks is dropped; the order of its roles is irrelevant.", "quantifier": "every pair of schemas", "why_tests_cant": "all policy lists, all role orders", "anchors": ["schema/generator.go:generateDDLsForCreatePolicy", "schema/generator.go:areSamePolicies"]}
{"id": "C41", "title": "Foreign keys are created, replaced and dropped as needed", "statement": "A foreign key of the desired CREATE TABLE is added when missing, replaced when its actions differ, and dropped when it is absent from the desired schema and no column refers to its table.", "quantifier": "every pair of schemas, every dialect", "why_tests_cant": "all foreign key lists", "anchors": ["schema/generator.go:generateDDLsForCreateTable", "schema/generator.go:generateDDLsForAbsentForeignKey", "schema/generator.go:areSameForeignKeys"]}
{"id": "C42", "title": "The scanner terminates on every input", "statement": "Scanning any input in any dialect ends after finitely many tokens, each scan consuming input or reporting the end; no character sequence makes it loop.", "quantifier": "every byte sequence, every dialect", "why_tests_cant": "all inputs; termination cannot be tested", "anchors": ["sqlparser/token.go:Scan", "sqlparser/token.go:next", "sqlparser/token.go:scanMySQLSpecificComment"]}
{"id": "C43", "title": "Quoted identifiers and string literals are scanned as written", "statement": "A quoted identifier or string literal, written by doubling its quote character (and escaping backslashes), is scanned as one token whose value is the original text, whatever follows.", "quantifier": "every text and every continuation", "why_tests_cant": "all strings", "anchors": ["sqlparser/token.go:scanLiteralIdentifier", "sqlparser/token.go:scanString"]}
{"id": "C44", "title": "Keywords are case-insensitive and identifiers keep their case", "statement": "A word is recognised as a keyword independently of its letter case, and the value of an identifier token is the text as written.", "quantifier": "every word", "why_tests_cant": "all case variants of all words", "anchors": ["sqlparser/token.go:scanIdentifier", "sqlparser/token.go:keywords"]}
{"id": "C45", "title": "White space between tokens is irrelevant", "statement": "Replacing a run of white space between tokens by any other non-empty run does not change the token sequence.", "quantifier": "every input, every white-space run", "why_tests_cant": "all inputs", "anchors": ["sqlparser/token.go:skipBlank", "sqlparser/token.go:Scan"]}
{"id": "C46", "title": "Encoded strings decode to the original", "statement": "Encoding a byte string as SQL literal and scanning it gives the original bytes.", "quantifier": "every byte string", "why_tests_cant": "all byte strings", "anchors": ["sqlparser/dependency/sqltypes/value.go:encodeBytesSQL", "sqlparser/token.go:scanString"]}
{"id": "C47", "title": "After application every column has its desired attributes", "statement": "After the generated script has been executed, every column of every desired table has the type, nullability, default, check, identity, auto-increment and uniqueness that the desired schema gives it.", "quantifier": "every pair of schemas, every dialect", "why_tests_cant": "all combinations of attribute changes, including those of the primary key", "anchors": ["schema/generator.go:generateDDLsForCreateTable", "schema/generator.go:haveSameColumnDefinition", "schema/generator.go:areSameDefaultValue"]}
{"id": "C48", "title": "Nothing is generated exactly when there is nothing to do", "statement": "The command generates no statement exactly when the current schema has the tables, columns, keys, indexes, foreign keys, policies, views and triggers that the desired schema asks for (as the dialect compares them), and nothing else.", "quantifier": "every pair of schemas with unique table names, every dialect", "why_tests_cant": "all pairs of schemas: one missed difference leaves the database silently wrong, one phantom difference makes every run change it", "anchors": ["schema/generator.go:GenerateIdempotentDDLs", "schema/generator.go:generateDDLs", "schema/generator.go:haveSameColumnDefinition", "schema/generator.go:areSameIndexes"]}
{"id": "C49", "title": "Scanning does not crash", "statement": "Scanning any text, in any dialect, ends with tokens or a lexical error token; it never panics.", "quantifier": "every text, every dialect", "why_tests_cant": "all texts, including truncated comments and literals; fails for an empty MySQL-specific comment", "anchors": ["sqlparser/token.go:Scan", "sqlparser/comments.go:ExtractMysqlComment"]}
{"id": "C50", "title": "Names in printed expressions are read back as the same name", "statement": "A name printed as part of an expression, a condition or a view definition is read back by the scanner of the same dialect as the same name.", "quantifier": "every name, every dialect, every following text", "why_tests_cant": "all names: keywords, quotes, non-ASCII letters; fails for Postgres and beyond the basic plane", "anchors": ["sqlparser/ast.go:formatID", "sqlparser/ast.go:Backtick", "sqlparser/token.go:scanLiteralIdentifier"]}
{"id": "C51", "title": "A definition says what its statement says", "statement": "The definition that schemas are compared by has the content of the parsed statement, field by field: tables with their columns in order, types, lengths, defaults, keys and identity; indexes with columns, options and conditions; foreign keys with columns, target and actions; policies, views and triggers. A statement of any other kind is refused.", "quantifier": "every statement the grammar accepts, every dialect, every behaviour of the grammar", "why_tests_cant": "all statements: one swapped or dropped field makes the tool compare something other than what was written", "anchors": ["schema/parser.go:parseDDL", "schema/parser.go:parseTable", "schema/parser.go:parseIndex"]}
{"id": "C52", "title": "A generated statement says what it is meant to say", "statement": "The text of a generated statement, read with the tokenizer of the same dialect, is exactly the sequence of keywords, names, numbers, strings and punctuation that its kind of statement consists of, about the intended table, column, index or constraint with all its clauses; no name and no value can add to it or change it.", "quantifier": "every kind of statement, every name, column, index, foreign key, sequence and default, every dialect", "why_tests_cant": "all names and values: a wrong clause order or a name with a quote makes another statement; fails for names with the closing quote and string defaults with a quote", "anchors": ["schema/generator.go:generateColumnDefinition", "schema/generator.go:generateAddIndex", "schema/generator.go:generateForeignKeyDefinition", "schema/generator.go:escapeSQLName", "schema/generator.go:generateDefaultDefinition"]}
{"id": "C53", "title": "An empty database is built from the file as written, an empty file tears everything down", "statement": "Against an empty database the statements are the ones of the file, character by character and in their order, and nothing is altered or dropped. With an empty file the statements are one DROP TABLE for every current table followed by one DROP VIEW for every current view, in their order, and nothing else.", "quantifier": "every well-formed file and every dump, every dialect, every behaviour of the grammar", "why_tests_cant": "all files and all dumps: fixes the direction of the comparison and the verbatim statements for every input", "anchors": ["schema/generator.go:GenerateIdempotentDDLs", "schema/generator.go:generateDDLs"]}
{"id": "C54", "title": "Parsing a statement always ends, without a crash of the parser's engine", "statement": "For every sequence of tokens the parser accepts or refuses after a number of steps proportional to its length; it never indexes its tables or its stack out of range, and it never resumes after a syntax error. This holds whatever the lexer hands out and whatever the semantic actions do.", "quantifier": "every token sequence, every lexer, every semantic action", "why_tests_cant": "all sequences of tokens: the tables have 1702 states, and one wrong entry shows only on the inputs that reach it", "anchors": ["sqlparser/parser.go:Parse", "sqlparser/parser.go:yylex1", "sqlparser/parser.go:yyAct"]}
{"id": "C55", "title": "What the parser accepts is a sentence of the grammar, and it is understood by its derivation", "statement": "If the parser accepts, the tokens read up to the end of the text have a derivation by the rules of the grammar file, and the result is what the actions make of that derivation, from the leaves up.", "quantifier": "every token sequence, every lexer, every semantic action", "why_tests_cant": "all sequences of tokens: the generated tables must do what the grammar says on every one of them", "anchors": ["sqlparser/parser.y", "sqlparser/parser.go:Parse"]}
{"id": "C56", "title": "A CREATE TABLE is understood as written", "statement": "A CREATE TABLE statement is parsed to the table it spells out: the name with its schema, every column with its type, length, default, key, identity, CHECK condition and other options, every index and primary key with columns, lengths, directions, options and partition, every foreign key with columns, target and actions, in the order written, and the options of the table; and this is the definition that the schema gets. Layout does not matter: white space, letter case of keywords, quoted or bare names, a semicolon at the end.", "quantifier": "every CREATE TABLE in the language of Spec/Written.lean: all column types, options, index and key forms of the grammar, in any number and order; CHECK conditions of any size in the language of Spec/Condition.lean (operators, comparisons, IN, LIKE, BETWEEN, IS, AND, OR, NOT, calls, casts, parentheses); without keywords as names; every dialect", "why_tests_cant": "all combinations of the parts: a wrong table entry or action shows only where certain parts meet, in states that no test statement reaches", "anchors": ["sqlparser/parser.y:create_table_prefix", "sqlparser/parser.y:column_definition", "sqlparser/parser.y:index_definition", "sqlparser/parser.y:foreign_key_definition", "sqlparser/ast.go:ParseStrictDDLWithMode"]}
{"id": "C57", "title": "The statements of a schema file are understood as written", "statement": "Every statement of a schema file, CREATE TABLE, CREATE INDEX, ALTER TABLE ADD (index, primary key, foreign key) and CREATE POLICY, becomes one definition of the kind and with the content that it spells out: tables, columns, conditions, included columns, options, partitions, roles. A file is understood statement by statement in its order. Two files of the same statements in different layouts, with comments and blank statements, are the same current schema, and nothing has to be changed to get from one to the other.", "quantifier": "every file whose statements are in the language of Spec/Written.lean and Spec/WrittenMore.lean, in any number, order and layout; conditions of any size; every dialect", "why_tests_cant": "the statements, their parts and their layouts can be combined without bound", "anchors": ["sqlparser/parser.y:create_statement", "sqlparser/parser.y:alter_statement", "sqlparser/ast.go:ParseStrictDDLWithMode", "schema/parser.go:parseDDLs", "schema/parser.go:parseIndex", "schema/generator.go:GenerateIdempotentDDLs"]}
{"id": "C58", "title": "A Postgres database is described as its catalog says, and its export changes nothing", "statement": "The dump of a Postgres database is read without an error as the tables, keys, indexes, foreign keys and policies that the catalog of the server lists, each with its columns, types, lengths, defaults, checks and options, in this order and nothing else. Applying an export to the same database executes nothing and reports that nothing is modified, also if the exported file was reformatted; two databases with equal catalogs are changed in the same way.", "quantifier": "every number of schemas, tables, columns, indexes, keys and policies; all types, defaults, checks and index definitions in the language of Spec/Adapter.lean (plain names for schemas, tables and keys; any column names; policies only in the schema public); no views; every desired schema", "why_tests_cant": "all catalogs: one piece of the assembled text that does not fit its neighbours makes the dump unreadable or different, and then every run fails or repeats a change", "anchors": ["adapter/postgres/postgres.go:DumpTableDDL", "adapter/postgres/postgres.go:buildDumpTableDDL", "adapter/postgres/postgres.go:getColumns", "adapter/database.go:DumpDDLs", "sqldef.go:Run"]}
{"id": "C59", "title": "MySQL and SQLite databases are described as their servers describe them, and their export changes nothing", "statement": "The dump of a MySQL or SQLite database is read without an error as the tables that the server describes by CREATE TABLE statements, each with its columns, keys, indexes and foreign keys, and nothing else. Applying an export to the same database executes nothing and reports that nothing is modified, also if the exported file was reformatted, and for SQLite also if its statements were rearranged.", "quantifier": "every number of tables; every CREATE TABLE of the language of C56 and C57, in any layout the server may choose; no views and triggers; names within a table different, foreign keys named, for MySQL no CHECK", "why_tests_cant": "the statements that a server can answer with, and their layouts, are without bound; one statement that is misread makes every run fail or repeat a change", "anchors": ["adapter/mysql/mysql.go:DumpTableDDL", "adapter/sqlite3/sqlite3.go:TableNames", "adapter/sqlite3/sqlite3.go:DumpTableDDL", "adapter/database.go:DumpDDLs", "sqldef.go:Run"]}
{"id": "C60", "title": "One run brings the tables of a SQLite database to those of the file, and the next run finds nothing to do", "statement": "If the tables of the database whose names occur in the file are as in the file, then the run creates the other tables of the file with the very statements of the file, in their order, and drops the tables that are not in the file, and executes nothing else. If the run ends without an error, then the database has exactly the tables of the file, and the next run with the same statements reports that nothing is modified.", "quantifier": "all databases and files of tables in the language of C56 and C57 (any number of tables, any layout); every server that keeps the text of CREATE TABLE as SQLite does, whatever else it does and whichever statements it rejects", "why_tests_cant": "all pairs of a database and a file, and all behaviours of the server; a test observes the second run for a few schemas only", "anchors": ["sqldef.go:Run", "adapter/database.go:RunDDLs", "adapter/sqlite3/sqlite3.go:DumpTableDDL", "schema/generator.go:GenerateIdempotentDDLs"]}
{"id": "C61", "title": "What is known about a Postgres table is what the server knows about that table", "statement": "For every database on the server, the tool lists exactly the tables outside the system schemas, and it gets to know about a table exactly its own columns in their order without those that were dropped, its own primary key in the order of the key, and its own foreign keys, indexes and policies, whatever else is in the database and in whatever order the server returns rows that no ORDER BY puts into an order. An export can be applied to a server that now returns the rows in another order: nothing is modified.", "quantifier": "every number of schemas, relations, columns, constraints, indexes and policies; every order of the rows; as long as tables of the same name in different schemas have no common column, the names of primary and foreign keys are not used by other tables, and unique, check and foreign key constraints are about one column each", "why_tests_cant": "all databases: a join on too few columns shows only if something elsewhere in the database has the same name, and an order that is not asked for may change at any time", "anchors": ["adapter/postgres/postgres.go:TableNames", "adapter/postgres/postgres.go:getColumns", "adapter/postgres/postgres.go:getPrimaryKeyColumns", "adapter/postgres/postgres.go:getForeginDefs", "adapter/postgres/postgres.go:getIndexDefs", "adapter/postgres/postgres.go:getPolicyDefs"]}
{"id": "C62", "title": "The order in which a schema is written does not matter", "statement": "If the desired schema has the same statements as the current one in another order, in whatever layout, then nothing is changed, in both directions, as long as every statement comes after the table it is about; an order in which it does not is refused with an error. Reordering never causes a change.", "quantifier": "every schema in dump-normal form, every reordering of its definitions, every dialect; as text for all statements whatsoever, views and triggers included, in every layout", "why_tests_cant": "all permutations of schemas of any size", "anchors": ["schema/generator.go:GenerateIdempotentDDLs", "schema/generator.go:generateDDLs", "schema/generator.go:convertDDLsToTablesAndViews"]}
{"id": "C63", "title": "A SQL Server database is described as its catalog says", "statement": "The export of a SQL Server database is read without an error as exactly the tables of the catalog: columns with type, nullability, default, identity and check, the primary key with its kind, order and options, the foreign keys with their actions, and the index with its included columns and options. The text does not depend on the order in which Go visits a map. A file that says the same in whatever layout changes nothing, and so does the export itself. Databases whose catalogs say the same are changed in the same way.", "quantifier": "every catalog whose names need no brackets where none are written, with the types and actions that the grammar knows, at most one index per table besides that of the primary key, and different table names; every order of the map; every layout of the file", "why_tests_cant": "all catalogs and all orders of a map: a piece of the dump that is read in another way than it was written shows as a statement that is executed in every run", "anchors": ["adapter/mssql/mssql.go:DumpTableDDL", "adapter/mssql/mssql.go:buildDumpTableDDL", "adapter/mssql/mssql.go:getIndexDefs", "adapter/mssql/mssql.go:getForeignDefs", "adapter/adapter.go:DumpDDLs"]}
{"id": "C64", "title": "A command works on the database that is named, with the flags that are given", "statement": "A command connects to nothing unless exactly one database is named; help and version end with status 0, a missing or a second name with status 1. Otherwise it does to the named database what a run does with exactly the options of the flags, and its status tells whether this ended with an error. User, host and port are those of the flags, and the password is the one typed at the prompt if there is a prompt, else the one of the environment if the variable is set, else that of the flags.", "quantifier": "all flags, arguments, environments, answers to the prompt, files and databases, for the four commands", "why_tests_cant": "all combinations of flags and environments", "anchors": ["cmd/mysqldef/mysqldef.go:parseOptions", "cmd/mysqldef/mysqldef.go:main", "cmd/psqldef/psqldef.go:parseOptions", "cmd/mssqldef/mssqldef.go:parseOptions", "cmd/sqlite3def/sqlite3def.go:parseOptions"]}
{"id": "C65", "title": "User, password and database reach the Postgres server as given", "statement": "The address with which a Postgres server is connected to says exactly the user, the password, the host, the port and the database of the configuration, whatever characters they consist of, and cannot be read in another way.", "quantifier": "all texts as user, password, host, database and socket, all ports, read according to RFC 3986", "why_tests_cant": "all texts: characters with a meaning in addresses are rare in tests", "anchors": ["adapter/postgres/postgres.go:postgresBuildDSN", "adapter/postgres/postgres.go:NewDatabase"]}
{"id": "C66", "title": "How a schema is written does not matter, whatever statements it has", "statement": "If two files have the same statements up to the layout of their tokens (white space, line breaks, capital or small letters in keywords, names with or without quotes), then both are refused or both have the same definitions; as the current schema they lead to the same changes to the letter; as the desired schema they lead to the same changes one by one, except that a statement that is passed on is passed on as it is written in the file; and whether there is anything to do does not depend on the layout. This holds for all statements, views, triggers and policies included.", "quantifier": "every pair of files, every sequence of tokens (no restriction to a part of the language), every dialect, every other schema", "why_tests_cant": "all texts: the parser has 999 rules and the actions of any of them could look at the text or its position", "anchors": ["schema/generator.go:GenerateIdempotentDDLs", "schema/parser.go:parseDDLs", "sqlparser/ast.go:ParseStrictDDLWithMode", "sqlparser/parser.go:Parse", "sqlparser/token.go:Scan"]}
{"id": "C67", "title": "A view is understood as it is written", "statement": "A CREATE VIEW statement with a query of any number of selected columns, sources (joined, nested in parentheses, with other names), a condition, groups, an order and a limit is understood as the view of this name (in small letters) and this query, in whatever layout it is written; so is a file in which such statements stand among tables, indexes, keys and policies. A view is replaced exactly when the database has a view of this name with another query, up to letter case.", "quantifier": "every query of the language of Spec/Query.lean, nested up to 200 parentheses, every layout, every dialect, every file", "why_tests_cant": "queries are trees of any size; the parser reads them with tables of some 1700 states and prints them anew to compare them", "anchors": ["sqlparser/parser.go:Parse", "sqlparser/ast.go:Select.Format", "sqlparser/ast.go:JoinTableExpr.Format", "schema/parser.go:parseDDL", "schema/generator.go:generateDDLsForCreateView"]}
{"id": "C68", "title": "An exported database with views is a fixed point", "statement": "When a Postgres, MySQL or SQLite database has tables and views, the exported schema is understood as these tables and views, with the queries as the database shows them; applying it to the database changes nothing, and so does applying any schema that is understood as the same statements.", "quantifier": "every number of tables and views, every query of the language of Spec/Query.lean, every layout in which the database keeps it", "why_tests_cant": "the text of a view is rewritten when it is read from the database: line ends, double spaces and the last semicolon are dropped with no regard to strings, so the tests can only try some queries", "anchors": ["adapter/postgres/postgres.go:Views", "adapter/mysql/mysql.go:Views", "adapter/sqlite3/sqlite3.go:Views", "adapter/database.go:DumpDDLs", "sqldef.go:Run"]}
{"id": "C69", "title": "Triggers are understood as they are written", "statement": "A CREATE TRIGGER statement of MySQL or SQL Server is understood with its name, its table, the moment and the event it fires at and each of its INSERT, REPLACE, UPDATE and DELETE statements; it is created if the database has no trigger of its name, created anew if the one there is differs in moment, event, table or statements, and otherwise left alone. An exported MySQL database with triggers is understood, and applying the export changes nothing.", "quantifier": "every trigger whose statements are in the language of Spec/Change.lean, in every layout, every number of rows, assignments, statements and triggers", "why_tests_cant": "a trigger is compared by the text that the parser makes of its statements, so the tests only settle the statements they contain; an export has two semicolons after each trigger, and the rows of the server are put together without quotes", "anchors": ["sqlparser/parser.y:create_statement (TRIGGER), trigger_statement", "sqlparser/ast.go:Insert.Format, Update.Format, Delete.Format", "schema/parser.go:parseDDL", "schema/generator.go:generateDDLsForCreateTrigger, areSameTriggerDefinition", "adapter/mysql/mysql.go:Triggers"]}
{"id": "C70", "title": "Exports of SQL Server databases with views and triggers can be applied", "statement": "The dump of a SQL Server database with tables, an index each, views and triggers is understood as just those, and a file that says the same in whatever layout, such as the export itself, changes nothing.", "quantifier": "every database whose tables are described as for C63, whose views are stored with a space after each line break, and whose triggers are in the language of C69; any number of each", "why_tests_cant": "views and triggers are stored as the users have written them, and the tool takes the line breaks out of views and cuts the whole dump at semicolons; a test only settles the texts it stores", "anchors": ["adapter/mssql/mssql.go:Views, Triggers", "adapter/database.go:DumpDDLs", "schema/parser.go:ParseDDLs, parseDDL", "schema/generator.go:generateDDLsForCreateView, generateDDLsForCreateTrigger"]}
{"id": "C71", "title": "The order within a table does not matter, except for MySQL", "statement": "For Postgres, SQL Server and SQLite, two schemas that differ only in the order of the columns, indexes and foreign keys within their CREATE TABLEs, and in the order of their statements, views and triggers included, are the same to the tool: nothing is generated from one to the other. For MySQL the order of the columns is part of the schema.", "quantifier": "every schema in dump-normal form in which no table has two primary keys, every order of the items of every table, every order of the statements in which each comes after its table, and every layout of the files; any number of tables, columns, indexes and foreign keys", "why_tests_cant": "the number of orders grows with the factorial of the items; the tool numbers columns as they come and looks things up by position and by name, and tests compare a few orders", "anchors": ["schema/generator.go:generateDDLsForCreateTable, findColumnByName, findIndexByName", "schema/parser.go:parseTable", "schema/ast.go:Table.PrimaryKey"]}
{"id": "C72", "title": "A SQL Server describes each table by itself, in whatever order it answers", "statement": "What a SQL Server answers to the queries of the tool is exactly what belongs to the table that is asked about: its columns with their own types, defaults, identities and checks, its indexes with their columns, and its foreign keys; and it lists exactly its views and triggers. No query asks for an order. An export can be applied without a change even if the server then returns tables, columns, indexes, foreign keys, views and triggers in another order, as long as the columns of each index come in the same order.", "quantifier": "every state of the system tables in which numbers and names are unique and references exist, every table whose columns have at most one check each and whose foreign keys have one column each, every order of the rows of every answer; any number of tables, columns and keys", "why_tests_cant": "the order in which a server returns rows without ORDER BY is up to its plans and caches and cannot be provoked by a test; joins go wrong for combinations of rows that no test database has", "anchors": ["adapter/mssql/mssql.go:TableNames, getColumns, getIndexDefs, getForeignDefs, Views, Triggers"]}
{"id": "C73", "title": "A Postgres server describes each view by itself, in whatever order it answers", "statement": "For every database on the server, the tool lists exactly the views outside the system schemas, each once and with its own query; none is missed and none of the system is listed, whatever the names are. An export of tables and views can be applied to a server that now returns the rows in another order: nothing is modified. Nothing is modified either by any file with the same statements in whatever layout and in any order in which each comes after its table.", "quantifier": "every number of schemas, tables and views, every order of the rows; as long as no other view, be it one of the system, has the name of one of the views, and the tables are as for C61", "why_tests_cant": "all databases: a join on too few columns shows only if something elsewhere in the database has the same name, and an order that is not asked for may change at any time", "anchors": ["adapter/postgres/postgres.go:Views", "adapter/database.go:DumpDDLs", "schema/generator.go:generateDDLsForCreateView", "sqldef.go:Run"]}
{"id": "C74", "title": "MySQL and SQLite may list tables, views and triggers in any order", "statement": "What was exported from a MySQL or SQLite database can be applied to a database with the same tables, views and triggers that lists them in another order: nothing is modified. Nothing is modified either by any file that has the statements of these tables, views and triggers in any order whatsoever and in whatever layout.", "quantifier": "every number of tables, views and triggers (MySQL), every order in which the server lists them, every order and layout of the file; for SQLite every order of the rows of sqlite_master in which the row of a table comes before those of its indexes", "why_tests_cant": "the number of orders grows with the factorial of the tables, and no query of the tool for MySQL or SQLite asks for an order", "anchors": ["adapter/mysql/mysql.go:TableNames, DumpTableDDL, Views, Triggers", "adapter/sqlite3/sqlite3.go:TableNames, DumpTableDDL, Views", "adapter/database.go:DumpDDLs", "schema/generator.go:generateDDLs", "sqldef.go:Run"]}
{"id": "C75", "title": "The order in which the database lists what it has decides the order of removals only", "statement": "Whatever is desired, if the database lists its tables, indexes, foreign keys, policies, views and triggers in another order, the generated script begins with the same statements in the same order and ends with the same removals of what is not wanted any more (DROP TABLE, DROP VIEW, DROP INDEX, DROP COLUMN and the like), which may come in another order. So no change depends on the order of the answers of a server. Except for MySQL, where their order is part of the schema, the same holds for the columns of a table. It holds between any two answers of a Postgres server or of a SQL Server, and between MySQL servers and SQLite databases that list the same.", "quantifier": "every desired schema, every current schema in which everything can be told apart by its name, every order in which it is listed and every layout of its description; any number of tables, indexes, keys, policies, views and triggers", "why_tests_cant": "the number of orders grows with the factorial of what is listed, the tool changes its copy of the current schema while it goes through the desired one, and no query for the tables of a server asks for an order", "anchors": ["schema/generator.go:GenerateIdempotentDDLs, generateDDLs, generateDDLsForCreateTable, findTableByName, findIndexByName", "adapter/postgres/postgres.go:TableNames, getIndexDefs, getForeignDefs, getPolicyDefs, Views", "adapter/mysql/mysql.go:TableNames, Views, Triggers", "adapter/sqlite3/sqlite3.go:TableNames, Views", "adapter/mssql/mssql.go:TableNames, getColumns, getIndexDefs, getForeignDefs, Views, Triggers"]}
{"id": "C76", "title": "Every statement of the file is compared with the database by itself", "statement": "For a given database every statement leads to certain changes, whatever file it is in: the script for a file is the changes of its statements, one after the other in the order of the file, followed by the removal of what no statement mentions. If the statements of a file come in any other order in which each comes after its table, the same parts come in that order, and the same removals follow in the same order. In particular a file with nothing to change has nothing to change in any order. And if the database lists what it has in another order as well, the same statements are generated, in another order.", "quantifier": "every dialect, every parser of statements, every database and every file in which no table is created twice, every order of the statements in which each comes after the CREATE TABLE of its table", "why_tests_cant": "the tool changes its copy of the current schema while it goes through the file, so the statements before decide what is compared; the number of orders grows with the factorial of the statements", "anchors": ["schema/generator.go:GenerateIdempotentDDLs, generateDDLs, generateDDLsForCreateTable, generateDDLsForCreateIndex, generateDDLsForCreateView, generateDDLsForCreatePolicy", "schema/parser.go:ParseDDLs"]}
{"id": "C77", "title": "A MySQL server describes the database by itself, whatever other databases it has", "statement": "What the tool gets to know about a database on a MySQL server is what is in that database: exactly its tables, each with its own statement, exactly its views, each with its own query, and exactly its triggers, whatever other databases on the server contain. So an export can be applied to a database with the same content on another server without a change, and what else is on a server decides nothing about the script.", "quantifier": "every server with any number of databases, tables, views and triggers, every order of the rows, every desired schema", "why_tests_cant": "the content of other databases is not under the control of a test, and a join or filter on too few columns shows only if another database has something of the same name", "anchors": ["adapter/mysql/mysql.go:TableNames, DumpTableDDL, Views, Triggers", "adapter/database.go:DumpDDLs", "sqldef.go:Run"]}
{"id": "C78", "title": "The address of a SQL Server says exactly user, password, server and database", "statement": "Whatever characters the user, the password and the name of the database consist of, the address that is built for a SQL Server says exactly them: whoever reads it by the rules for addresses finds this user, this password, this server and port and this database, and nothing else. No password and no name can pretend to be a server, another database or an option, and two different configurations never get the same address.", "quantifier": "every user, password and name of a database, all texts of all characters, every port, and every host that is written as a name or a number", "why_tests_cant": "the texts are arbitrary: delimiters, percent signs, plus signs, spaces and characters beyond ASCII are each escaped differently in the parts of an address, and a test tries a few passwords", "anchors": ["adapter/mssql/mssql.go:mssqlBuildDSN"]}
{"id": "C79", "title": "One run brings the tables and views of a SQLite database to those of the file", "statement": "When a file has the statements of tables and then of views, and the tables and views of a SQLite database with a name in the file are as in the file, a run that ends without an error leaves exactly the tables and the views of the file behind: the missing ones are created with the text of the file, tables first, then the tables and at last the views that the file does not mention are dropped, and nothing else is done. The next run with the same statements, in any order and layout, changes nothing.", "quantifier": "every number of tables and views in the file and in the database, every layout of the file and of the stored texts, every server that keeps a row per table and view as SQLite does", "why_tests_cant": "the number of combinations of tables and views that are there, missing or to be dropped is not bounded, and the statements that are executed change what the next ones find", "anchors": ["sqldef.go:Run", "schema/generator.go:generateDDLs, generateDDLsForCreateView", "adapter/database.go:RunDDLs, DumpDDLs", "adapter/sqlite3/sqlite3.go:TableNames, DumpTableDDL, Views"]}
{"id": "C80", "title": "A view is dropped and replaced where it is", "statement": "A view of the file is compared with the view of the same schema and name in the database, and with no other. Every DROP VIEW of a script names, by schema and name, a view that the database has and that the file does not mention or wants with another query, and every CREATE OR REPLACE VIEW names a view of the file that the database has with another query.", "quantifier": "every dialect, every file and every database with any number of views in any schemas", "why_tests_cant": "the schemas and names are arbitrary, and a test with views in one schema cannot show it", "anchors": ["schema/parser.go:parseDDL (View)", "schema/generator.go:generateDDLsForCreateView, generateDDLs, escapeTableName"]}
{"id": "C81", "title": "With skip-drop everything stays and what is missing is created", "statement": "A run with --skip-drop on a SQLite database that ends without an error keeps every table and every view that is there and creates every table and view of the file that is missing, so that the database then has all tables and views of both; and wherever the same run without the option ends without an error, so does the run with it.", "quantifier": "every number of tables and views in the file and in the database, every layout of the file, every server that keeps a row per table and view as SQLite does", "why_tests_cant": "the statements to be skipped are recognised by four letters in their text, and the texts are arbitrary; what remains of a script was never meant to be executed alone", "anchors": ["adapter/database.go:RunDDLs", "sqldef.go:Run", "schema/generator.go:generateDDLsForCreateView", "adapter/sqlite3/sqlite3.go:TableNames, DumpTableDDL, Views"]}
{"id": "C82", "title": "What depends on a table is dropped before it", "statement": "When a run is to drop several tables and views, a table is dropped after every view that uses it and after every table that has a foreign key to it, so that a server that does not drop a table in use accepts the script.", "quantifier": "every dialect, every pair of schemas with any number of tables, foreign keys and views", "why_tests_cant": "the tables and views may depend on one another in any way and be listed in any order, and a server in a test refuses only the orders that the test happens to produce", "anchors": ["schema/generator.go:generateDDLs", "adapter/database.go:RunDDLs"]}
{"id": "C83", "title": "When a statement is executed, the tables and views that it needs are there", "statement": "If every statement of a file comes after the CREATE TABLE and CREATE VIEW of the tables and views that it needs, so that the file can be executed on an empty database, the same holds for the script for any database: when a statement of the file is executed, a foreign key is added, or a view or trigger is replaced, every table and every view that the statement of the file needs was in the database or has been created before, and has not been dropped since.", "quantifier": "every dialect, every meaning of what a statement needs, every file in such an order and every database, any number of statements", "why_tests_cant": "which statements of the file are executed depends on the database, and what they need may be anywhere before", "anchors": ["schema/generator.go:generateDDLs, generateDDLsForCreateTable"]}
