{
 "C01": {
  "status": "proved",
  "note": "For every database, grammar, file content and option set."
 },
 "C02": {
  "status": "proved",
  "note": ""
 },
 "C03": {
  "status": "proved",
  "note": "Every removal the generator can emit mentions DROP in every dialect, except the removal of an SQLite index, whose text is empty and removes nothing."
 },
 "C04": {
  "status": "proved",
  "note": ""
 },
 "C05": {
  "status": "proved",
  "note": "Trace form for every database and state form for every transactional database."
 },
 "C06": {
  "status": "partial",
  "note": "The property is false: the commit error is discarded (C06_commit_error_is_lost). Proved under the assumption that the commit does not fail."
 },
 "C07": {
  "status": "proved",
  "note": ""
 },
 "C08": {
  "status": "proved",
  "note": ""
 },
 "C09": {
  "status": "proved",
  "note": ""
 },
 "C10": {
  "status": "proved",
  "note": ""
 },
 "C11": {
  "status": "proved",
  "note": ""
 },
 "C12": {
  "status": "proved",
  "note": ""
 },
 "C13": {
  "status": "proved",
  "note": ""
 },
 "C14": {
  "status": "partial",
  "note": "The property is false (C14_semicolon_in_literal_splits); proved for statements without semicolons, and exactly what happens otherwise (C14_no_statement_has_semicolon)."
 },
 "C15": {
  "status": "partial",
  "note": "Injective for schema names without a dot; false with dots (C15_dotted_names_collide)."
 },
 "C16": {
  "status": "proved",
  "note": "Also: what happens outside the 64-bit range."
 },
 "C17": {
  "status": "partial",
  "note": "False for charsets starting with a letter of 'charset=' (C17_charset_mangled); exact result for all charsets (C17_detected_charset)."
 },
 "C18": {
  "status": "partial",
  "note": "Proved for every schema in dump-normal form (Spec/Normal.lean) and every dialect. The excluded cases are real violations: MySQL columns with CHECK (C18_check_column_is_always_changed), PRIMARY KEY without NOT NULL, repeated index options (C18_other_violations)."
 },
 "C20": {
  "status": "partial",
  "note": "Proved for the changes described by Spec.Supported. False outside: see the C20_*_fails, C20_*_lost, C20_sqlite_index_stays and C20_separate_foreign_key_ignored theorems."
 },
 "C21": {
  "status": "proved",
  "note": "For schemas that create no table twice."
 },
 "C22": {
  "status": "proved",
  "note": "For schemas that create no table twice."
 },
 "C23": {
  "status": "partial",
  "note": "The code violates the property for SQL Server (C23_mssql_drops_wanted_column): a column whose identity changes is dropped, and lost if the identity is removed. Proved as an equivalence for the other dialects; for all dialects every obsolete column is dropped and every dropped column is obsolete or changes its identity."
 },
 "C24": {
  "status": "proved",
  "note": "For schemas that create no table twice and tables without repeated column names."
 },
 "C25": {
  "status": "partial",
  "note": "Proved for the generated statements of all dialects; the text of DROP INDEX is empty for SQLite (C25_sqlite3_drops_nothing), so an obsolete index stays there."
 },
 "C26": {
  "status": "proved",
  "note": "For every table present in both schemas; schemas that create no table twice."
 },
 "C27": {
  "status": "proved",
  "note": "Schemas that create no table twice."
 },
 "C29": {
  "status": "proved",
  "note": "Schemas that create no table twice; the unchanged table is in dump-normal form."
 },
 "C30": {
  "status": "proved",
  "note": "For every reordering that keeps the order of the definitions about the same table and of those about no table; schemas that create no table twice."
 },
 "C31": {
  "status": "partial",
  "note": "No hypothesis on the schemas. Not detected by the code: a table created twice (C31_table_created_twice_accepted), an index repeated inside one CREATE TABLE (C31_index_twice_in_table_accepted)."
 },
 "C33": {
  "status": "partial",
  "note": "Proved for all comparisons; for MySQL columns the exact condition (no CHECK, PRIMARY KEY written NOT NULL) and for indexes distinct option names are needed, with counterexamples otherwise."
 },
 "C34": {
  "status": "partial",
  "note": "For each comparison the attributes whose change is noticed; counterexamples for the ones that go unnoticed (scale, missing length, string vs number default, index prefix lengths, removed options, referenced table of a foreign key, roles of policies)."
 },
 "C35": {
  "status": "proved",
  "note": ""
 },
 "C38": {
  "status": "proved",
  "note": ""
 },
 "C39": {
  "status": "proved",
  "note": "Equality of triggers is the comparison characterised under C34."
 },
 "C40": {
  "status": "partial",
  "note": "Proved relative to the comparison of policies, which misses changed roles if the conditions differ by parentheses (C40_changed_roles_not_noticed)."
 },
 "C41": {
  "status": "partial",
  "note": "Exact for foreign keys of CREATE TABLE; the code never adds one defined by ALTER TABLE (C41_separate_foreign_key_is_not_added) and never drops one for SQLite (C41_sqlite3_keeps_obsolete_foreign_key)."
 },
 "C28": {
  "status": "partial",
  "note": "The first half is false: one run misses the order when common columns are permuted (C28_mysql_order_missed). Proved: one run reaches the order if the common columns keep their relative order; every run brings one more column into its place; as many runs as the table has columns reach the order. For the changes described by Supported."
 },
 "C47": {
  "status": "partial",
  "note": "Proved for the changes described by Supported on a schema as a server reports it: type, NOT NULL, default, CHECK, AUTO_INCREMENT, identity and the other attributes for MySQL and Postgres; default, CHECK and IDENTITY for SQL Server; new columns in all dialects. Proved false otherwise: SQL Server never changes a type or NOT NULL, SQLite never changes an existing column, UNIQUE is not added to an existing column outside MySQL, a MySQL column that loses AUTO_INCREMENT reverts other changes, a column leaving the primary key stays NOT NULL."
 },
 "C48": {
  "status": "proved",
  "note": "Exact characterisation (Agrees, Verif/Spec/Agrees.lean). What a dialect does not compare is visible in that definition: SQLite compares column names only, SQL Server neither type nor NOT NULL, and both keep a primary key that is not desired (C48_undesired_key_is_not_noticed)."
 },
 "C19": {
  "status": "partial",
  "note": "False in general: theorems C19_former_key_column, C19_mysql_* and C19_unnamed_foreign_key give schemas that need another run, never settle or fail on the second run. Proved for every pair of schemas described by Supported and Settles, on a schema as a server reports it."
 },
 "C36": {
  "status": "proved",
  "note": "Exact: read back if and only if the name is not empty and does not contain the closing quote."
 },
 "C37": {
  "status": "partial",
  "note": "The property is false: quotes and backslashes are not escaped (C37_quote_in_default). Proved exactly when the default is read back (C37_string_default_iff)."
 },
 "C42": {
  "status": "proved",
  "note": "At most as many tokens as characters; every call consumes; the end is final. Crashes are C49."
 },
 "C43": {
  "status": "proved",
  "note": "Both directions: what is written is read, and only that is read."
 },
 "C44": {
  "status": "partial",
  "note": "False for one word: the identifier DUAL is lower-cased (C44_dual)."
 },
 "C45": {
  "status": "proved",
  "note": "As texts (behind any prefix that is read whole) and between any two calls of Scan, also inside a MySQL-specific comment."
 },
 "C46": {
  "status": "proved",
  "note": "Strings are lists of characters; the bytes of a character outside ASCII are all copied."
 },
 "C49": {
  "status": "partial",
  "note": "The property is false: an empty MySQL-specific comment panics (C49_empty_special_comment). Proved for all texts without one."
 },
 "C50": {
  "status": "partial",
  "note": "False for Postgres, where backquotes are used (C50_postgres_quotes), for characters beyond U+FFFF (C50_beyond_bmp) and for DUAL (C50_dual). Proved for every other name."
 },
 "C51": {
  "status": "proved",
  "note": "For every behaviour of the SQL grammar (Env.parse) and every statement."
 },
 "C52": {
  "status": "partial",
  "note": "False for names with the closing quote of the dialect (C52_quote_in_name) and string defaults with a quote (C52_quote_in_default). Proved for every statement whose names can be quoted and whose parts kept as text are sequences of whole tokens."
 },
 "C32": {
  "status": "partial",
  "note": "False for the code: NOT FOR REPLICATION without IDENTITY, an empty executable comment, a :: without operand in a CHECK and adding a MySQL index with USING BTREE to an existing table panic; a table to be dropped that the current schema creates twice ends the process (C32_replication_without_identity, C32_empty_executable_comment, C32_cast_of_nothing, C32_using_btree, C32_obsolete_table_twice). Proved end to end, from the two texts through tokenizer, grammar, actions, conversion and generator, for all texts without these constructs (C32_plain_schemas_return_partial), and for all complete definitions."
 },
 "C53": {
  "status": "proved",
  "note": "Separate foreign keys give no statement and triggers are rebuilt from their parts (MySQL, SQL Server); both are part of the exact statement C53_empty_database."
 },
 "C54": {
  "status": "proved",
  "note": "About the driver and its tables (1702 states, 999 rules) with the lexer and the actions as a parameter. The tables are checked by the kernel against a certificate, state by state."
 },
 "C55": {
  "status": "proved",
  "note": "Soundness: every accepted text is a sentence. The converse (every sentence is accepted) is false of a grammar with precedences and is not claimed."
 },
 "C56": {
  "status": "proved",
  "note": "The whole chain scanner - tables - actions, for the statements of Spec/Written.lean. Exact, and therefore with the losses of the code: the schema of a referenced table is dropped (C56_schema_of_a_reference_is_lost), DEFAULT NOW() becomes the bit string b'now' (C56_now_becomes_a_bit_string), comments of columns, ZEROFILL, the columns of an inline REFERENCES and the method of USING are ignored. CHECK conditions (Spec/Condition.lean) are kept as the text that the code prints for them: a cast becomes convert(..) (C56_cast_becomes_convert), MOD becomes %, CURRENT_DATE gets parentheses; `a -1` is refused (C56_minus_needs_a_blank). Subqueries, CASE and ESCAPE in conditions and keywords as names are not in the language."
 },
 "C57": {
  "status": "proved",
  "note": "For the language of Spec/Written.lean and Spec/WrittenMore.lean. Exact, and therefore with the losses of the code: the access method of an index, its options and CLUSTERED where a method is named after the table (C57_method_and_options_are_lost), IGNORE (C57_ignore_is_lost); a plain CREATE INDEX counts as clustered (C57_plain_index_is_clustered). C57_rewriting_changes_nothing needs the schema to be in dump-normal form, as C18 does. CREATE VIEW and CREATE TRIGGER are not in the language."
 },
 "C58": {
  "status": "proved",
  "note": "For the catalogs of Spec/Adapter.lean, with the real parser. Outside of them the code fails, and this is proved too: indexes named like keys are invisible (C58_indexes_named_like_keys_are_invisible), a policy outside public makes every run fail (C58_policies_outside_public_fail), the export of a composite foreign key cannot be applied (C58_composite_foreign_key_export_fails), tables with bytea, interval, inet, gen_random_uuid() and others, and tables without columns, make every run fail (C58_some_tables_cannot_be_read), the precision of numeric is not seen (C58_precision_of_numbers_is_not_seen). Views are left out."
 },
 "C59": {
  "status": "proved",
  "note": "For tables in the language of Spec/Written.lean, with the real parser. Outside of it the code fails, and this is proved too: answers of MySQL and tables of SQLite that cannot be read make every run fail (C59_some_mysql_tables_cannot_be_read, C59_some_sqlite_tables_cannot_be_read), indexes of SQLite outside of CREATE TABLE are never seen and created again by every run (C59_sqlite_indexes_are_invisible, C59_sqlite_index_is_created_again), tables of SQLite named sqlite... are not seen (C59_sqlite_prefix_is_invisible). Views and triggers are left out."
 },
 "C60": {
  "status": "proved",
  "note": "The first part (C60_only_the_difference) holds for MySQL and SQL Server as well. The other parts are for SQLite, which keeps the text of a CREATE TABLE; what is assumed about the server is the structure LiteServer (Spec/StoredText.lean), and a server with these properties is given (exLite_server). Tables that are altered are not covered here; see C06 and C19."
 },
 "C61": {
  "status": "proved",
  "note": "The queries are modelled as joins over the relations of the server (Model/PgQuery.lean). The conditions are necessary in that the code mixes things up without them, and this is proved too: tables of the same name in two schemas are shown with repeated columns and one joint primary key, which is dropped and added again in every run (C61_tables_of_the_same_name_are_mixed_up); unique pairs are shown as unique columns (C61_unique_pairs_are_shown_as_unique_columns); foreign keys of the same name are multiplied (C61_foreign_keys_of_the_same_name_are_multiplied); a partitioned table is shown without columns (C61_partitioned_tables_have_no_columns), so that every run fails. The query for views is the subject of C73."
 },
 "C62": {
  "status": "proved",
  "note": "For schemas in dump-normal form (see C18), as definitions and as text; as text for any statements, views and triggers included, in every dialect (C62_any_statements_in_any_order)."
 },
 "C63": {
  "status": "proved",
  "note": "For the catalogs of Spec/MsAdapter.lean, without views and triggers. What lies outside is proved to go wrong: two indexes of a table are written without a separator and make every run fail (C63_two_indexes_cannot_be_read), lengths of types like nvarchar are lost (C63_other_lengths_are_lost), tables of the same name in different schemas are mixed up (C63_schemas_are_mixed_up), names that need brackets, unknown types and ON DELETE SET DEFAULT cannot be read (C63_some_tables_cannot_be_read)."
 },
 "C64": {
  "status": "proved",
  "note": "The parsing of the flags itself (go-flags) is not modelled."
 },
 "C65": {
  "status": "partial",
  "note": "The property is false: spaces in user and password become plus signs (C65_space_is_lost), the name of the database is cut at a question mark (C65_database_name_is_cut), and the directory of a socket is read as part of the name of the database (C65_socket_is_no_server). Proved for all users and passwords without spaces, hosts and databases without delimiters; C65_what_the_address_says is exact with spaces."
 },
 "C66": {
  "status": "proved",
  "note": "Parametricity: two tokenizers that hand out the same tokens lead the driver of the parser to the same result (Proofs/YyAlike.lean), and the generator commutes with every change of the texts of the statements (Proofs/Retext.lean). Comments are not part of a layout: in a query they are kept in the definition of a view (C66_comments_in_views_matter). Placeholders such as ? and the MySQL comments that are executed are not among the tokens of Spec/Layout.lean."
 },
 "C67": {
  "status": "proved",
  "note": "For the language of Spec/Query.lean: no UNION, subqueries, CASE, hints, locks or comments in the query. What is lost by design of the code is stated too: the schema of a view (two views with the same name in two schemas are refused, C67_schemas_of_views_are_lost), and letter case, in strings as well (C67_letter_case_of_queries_is_lost: a view whose query differs in the case of a string is not replaced)."
 },
 "C68": {
  "status": "proved",
  "note": "For databases without triggers whose views have names that can be written without quotes and different names up to their schema, and queries of the language of C67. What the rows of the catalog say is stated in Spec/ViewRows.lean. Limits of the code are stated too: double spaces and line ends inside strings are lost (C68_spaces_in_strings_are_lost), and a view with a space or hyphen in its name makes every run fail (C68_some_names_of_views_cannot_be_read)."
 },
 "C69": {
  "status": "proved",
  "note": "For triggers whose statements are INSERT/REPLACE with rows of values, UPDATE of one table and DELETE of one table (Spec/Change.lean says what is left out). Limits of the code are stated too: spaces and letter case, also those in strings, and the schema of the table are not compared (C69_spaces_and_case_and_schema_are_lost), and a trigger that the desired schema does not have is never dropped (C69_trigger_is_dropped_iff)."
 },
 "C70": {
  "status": "proved",
  "note": "For the views of C67 and the triggers of C69. Limits of the code are stated too: line breaks in views are deleted and not replaced (C70_line_breaks_are_lost), so a view stored as AS<newline>SELECT makes every run fail and one stored as a<newline>FROM t is dropped and created by every run."
 },
 "C71": {
  "status": "proved",
  "note": "The desired schema is in dump-normal form and has at most one primary key per table (OneKey). C71_order_matters_for_mysql shows why MySQL is excluded."
 },
 "C72": {
  "status": "proved",
  "note": "The queries are modelled as joins over the system tables (Model/MsQuery.lean). The conditions are necessary: if the columns of a key come in another order, the run tries to add the primary key once more (C72_order_of_keys_is_not_asked_for; with one column per key nothing has to be assumed, C72_single_keys_are_in_order); foreign keys of several columns and columns with two checks are shown several times (C72_rows_are_multiplied); checks of whole tables are invisible (C72_checks_of_tables_are_invisible). Nothing can be read if a view or a trigger is encrypted (C72_encrypted_definitions_cannot_be_read). Triggers on the database as a whole are not modelled."
 },
 "C73": {
  "status": "proved",
  "note": "The query is modelled as a join over the relations of the server (Model/PgQuery.lean). The condition on the names is necessary: a view called like one of the system is listed with the queries of both, so that the export cannot be applied (C73_views_named_like_system_views_cannot_be_exported) and, depending on the order of the rows, the view is replaced in every run (C73_views_named_like_system_views_are_replaced)."
 },
 "C74": {
  "status": "proved",
  "note": "For tables, views and triggers as in C59, C68 and C69. The query for the rows of sqlite_master takes the first row that belongs to a table, hence the condition on the order (see C59)."
 },
 "C75": {
  "status": "proved",
  "note": "For the servers, tables, views and triggers as in C73 and C74. SQL Server as in C72. The columns of a table may come in any order except for MySQL, where it is part of the schema (C71). The columns of an index keep their order."
 },
 "C76": {
  "status": "proved",
  "note": "Extends C30 to texts, to views and triggers and to parts of the same table in any order. The condition that each statement comes after its table is necessary: C31."
 },
 "C77": {
  "status": "partial",
  "note": "False for views: the query for the definition does not mention the database, so a view of the same name in another database may be read instead (C77_view_of_another_database). Proved for tables and triggers, and for views if no other database has a view of the same name. Names without quotes; tables, views and triggers of the runs as in C74."
 },
 "C78": {
  "status": "proved",
  "note": "For every user, password and database name, and every host of letters, digits and -._~:[]. The escaping functions of net/url are modelled byte by byte."
 },
 "C79": {
  "status": "proved",
  "note": "Tables as in C60, views with queries in the language of C67 and with names in small letters. No table has the name of a view. A view that differs is replaced (C67), and a table that differs is altered (C02 and others); the state after these is not part of this property."
 },
 "C80": {
  "status": "partial",
  "note": "False for Postgres and SQL Server with views outside the default schema: the schema of a view is not kept, so the script drops a view of that name in public or dbo instead (C80_drops_in_the_default_schema), and a view of the file counts as existing if another schema has one of the same name and query (C80_view_of_another_schema_counts). Proved for views in the default schema with names in small letters and without dots; queries in the language of C67."
 },
 "C81": {
  "status": "partial",
  "note": "The property is false: a wanted table or view whose text contains the letters DROP, say in the name of a column, is left out without an error (C81_wanted_table_is_left_out; C81_what_is_there is exact), and for SQLite and SQL Server a view with another query is created while the old one is still there, since only its DROP VIEW is skipped (C81_changed_view_is_created_while_it_is_there). Proved in the setting of C79 for files without these letters."
 },
 "C82": {
  "status": "partial",
  "note": "The property is false. The tables that the file does not define are dropped in the order in which the database lists them (C82_tables_in_the_order_of_the_database, exact), whatever foreign keys they have, and all of them before any view that the file does not mention (C82_tables_are_dropped_before_views). So a server that does not drop a table in use ends the run with an error, for every such pair of a table and a view (C82_table_of_a_dropped_view_is_refused) and of two tables listed in the wrong order (C82_referenced_table_is_refused). Proved for databases that list tables with foreign keys before the tables they refer to."
 },
 "C83": {
  "status": "proved",
  "note": "The theorems quantify over an arbitrary function that says which tables or views a statement of the file needs."
 }
}