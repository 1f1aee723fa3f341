{
 "claims": [
  {
   "property": "C01",
   "status": "proved",
   "theorems": [
    "Sqldef.C01_dryRun_executes_nothing"
   ],
   "note": "For every database, grammar, file content and option set."
  },
  {
   "property": "C02",
   "status": "proved",
   "theorems": [
    "Sqldef.C02_export_prints_dump",
    "Sqldef.C02_export_ignores_file"
   ],
   "note": ""
  },
  {
   "property": "C03",
   "status": "proved",
   "theorems": [
    "Sqldef.C03_skipDrop_executes_no_drop",
    "Sqldef.C03_removals_mention_drop",
    "Sqldef.C03_skipDrop_removes_nothing",
    "Sqldef.C03_skipDrop_executes_the_rest",
    "Sqldef.C03_without_skipDrop_everything_is_executed",
    "Sqldef.C03_command_executes_no_drop"
   ],
   "note": "Every removal the generator can emit mentions DROP in every dialect, except the removal of an SQLite index, whose text is empty and removes nothing."
  },
  {
   "property": "C04",
   "status": "proved",
   "theorems": [
    "Sqldef.C04_executed_prefix",
    "Sqldef.C04_command_executes_prefix"
   ],
   "note": ""
  },
  {
   "property": "C05",
   "status": "proved",
   "theorems": [
    "Sqldef.C05_failure_rolls_back",
    "Sqldef.C05_success_commits_once",
    "Sqldef.C05_all_or_nothing",
    "Sqldef.C05_commit_iff_all_succeed",
    "Sqldef.C05_command_all_or_nothing",
    "Sqldef.C05_command_failure_rolls_back"
   ],
   "note": "Trace form for every database and state form for every transactional database."
  },
  {
   "property": "C06",
   "status": "partial",
   "theorems": [
    "Sqldef.C06_commit_error_is_lost",
    "Sqldef.C06_success_means_committed_partial",
    "Sqldef.C06_command_success_means_committed_partial"
   ],
   "note": "The property is false: the commit error is discarded (C06_commit_error_is_lost). Proved under the assumption that the commit does not fail."
  },
  {
   "property": "C07",
   "status": "proved",
   "theorems": [
    "Sqldef.C07_dryRun_shows_apply",
    "Sqldef.C07_lines_are_statements"
   ],
   "note": ""
  },
  {
   "property": "C08",
   "status": "proved",
   "theorems": [
    "Sqldef.C08_invalid_input_changes_nothing",
    "Sqldef.C08_terminal_is_refused",
    "Sqldef.C08_desired_schema_source",
    "Sqldef.C08_parse_error_is_error"
   ],
   "note": ""
  },
  {
   "property": "C09",
   "status": "proved",
   "theorems": [
    "Sqldef.C09_nothing_modified"
   ],
   "note": ""
  },
  {
   "property": "C10",
   "status": "proved",
   "theorems": [
    "Sqldef.C10_dump_complete"
   ],
   "note": ""
  },
  {
   "property": "C11",
   "status": "proved",
   "theorems": [
    "Sqldef.C11_joined_statements_are_split",
    "Sqldef.C11_trim"
   ],
   "note": ""
  },
  {
   "property": "C12",
   "status": "proved",
   "theorems": [
    "Sqldef.C12_one_definition_per_statement",
    "Sqldef.C12_texts_are_kept",
    "Sqldef.C12_bad_statement_rejects_all"
   ],
   "note": ""
  },
  {
   "property": "C13",
   "status": "proved",
   "theorems": [
    "Sqldef.C13_comment_text_irrelevant",
    "Sqldef.C13_comment_can_be_inserted",
    "Sqldef.C13_leading_comment"
   ],
   "note": ""
  },
  {
   "property": "C14",
   "status": "partial",
   "theorems": [
    "Sqldef.C14_semicolon_in_literal_splits",
    "Sqldef.C14_no_statement_has_semicolon",
    "Sqldef.C14_statement_passed_whole_partial"
   ],
   "note": "The property is false (C14_semicolon_in_literal_splits); proved for statements without semicolons, and exactly what happens otherwise (C14_no_statement_has_semicolon)."
  },
  {
   "property": "C15",
   "status": "partial",
   "theorems": [
    "Sqldef.C15_unqualified_is_public",
    "Sqldef.C15_qualified_injective_partial",
    "Sqldef.C15_dotted_names_collide",
    "Sqldef.C15_other_dialects_drop_schema"
   ],
   "note": "Injective for schema names without a dot; false with dots (C15_dotted_names_collide)."
  },
  {
   "property": "C16",
   "status": "proved",
   "theorems": [
    "Sqldef.C16_integer_read",
    "Sqldef.C16_length_read",
    "Sqldef.C16_length_out_of_range",
    "Sqldef.C16_print_read",
    "Sqldef.C16_default_printed",
    "Sqldef.C16_overflow_is_clamped"
   ],
   "note": "Also: what happens outside the 64-bit range."
  },
  {
   "property": "C17",
   "status": "partial",
   "theorems": [
    "Sqldef.C17_detected_charset",
    "Sqldef.C17_binary_collation_partial",
    "Sqldef.C17_charset_mangled",
    "Sqldef.C17_other_collation"
   ],
   "note": "False for charsets starting with a letter of 'charset=' (C17_charset_mangled); exact result for all charsets (C17_detected_charset)."
  },
  {
   "property": "C18",
   "status": "partial",
   "theorems": [
    "Sqldef.C18_self_diff_is_empty",
    "Sqldef.C18_check_column_is_always_changed",
    "Sqldef.C18_other_violations"
   ],
   "note": "Proved for every schema in dump-normal form (Spec/Normal.lean) and every dialect. The excluded cases are real violations: MySQL columns with CHECK (C18_check_column_is_always_changed), PRIMARY KEY without NOT NULL, repeated index options (C18_other_violations)."
  },
  {
   "property": "C19",
   "status": "partial",
   "theorems": [
    "Sqldef.C19_second_run_is_empty_partial",
    "Sqldef.C19_stays_empty",
    "Sqldef.C19_former_key_column",
    "Sqldef.C19_mysql_auto_increment",
    "Sqldef.C19_mysql_order",
    "Sqldef.C19_mysql_unique",
    "Sqldef.C19_mysql_never_settles",
    "Sqldef.C19_mysql_check_never_settles",
    "Sqldef.C19_unnamed_foreign_key"
   ],
   "note": "False in general: theorems C19_former_key_column, C19_mysql_* and C19_unnamed_foreign_key give schemas that need another run, never settle or fail on the second run. Proved for every pair of schemas described by Supported and Settles, on a schema as a server reports it."
  },
  {
   "property": "C20",
   "status": "partial",
   "theorems": [
    "Sqldef.C20_script_runs_and_reaches_partial",
    "Sqldef.C20_mssql_identity_fails",
    "Sqldef.C20_mssql_primary_key_fails",
    "Sqldef.C20_sqlite_alter_table_fails",
    "Sqldef.C20_mysql_unique_column_fails",
    "Sqldef.C20_mssql_identity_column_lost",
    "Sqldef.C20_sqlite_index_stays",
    "Sqldef.C20_mssql_primary_key_lost",
    "Sqldef.C20_separate_foreign_key_ignored"
   ],
   "note": "Proved for the changes described by Spec.Supported. False outside: see the C20_*_fails, C20_*_lost, C20_sqlite_index_stays and C20_separate_foreign_key_ignored theorems."
  },
  {
   "property": "C21",
   "status": "proved",
   "theorems": [
    "Sqldef.C21_only_missing_tables_are_created",
    "Sqldef.C21_missing_table_is_created_once",
    "Sqldef.C21_missing_table_only_own_statements",
    "Sqldef.C21_missing_table_verbatim"
   ],
   "note": "For schemas that create no table twice."
  },
  {
   "property": "C22",
   "status": "proved",
   "theorems": [
    "Sqldef.C22_drop_table_iff",
    "Sqldef.C22_drop_table_once"
   ],
   "note": "For schemas that create no table twice."
  },
  {
   "property": "C23",
   "status": "partial",
   "theorems": [
    "Sqldef.C23_obsolete_column_is_dropped",
    "Sqldef.C23_dropped_columns",
    "Sqldef.C23_drop_column_iff_partial",
    "Sqldef.C23_mssql_drops_wanted_column"
   ],
   "note": "The code violates the property for SQL Server (C23_mssql_drops_wanted_column): a column whose identity changes is dropped, and lost if the identity is removed. Proved as an equivalence for the other dialects; for all dialects every obsolete column is dropped and every dropped column is obsolete or changes its identity."
  },
  {
   "property": "C24",
   "status": "proved",
   "theorems": [
    "Sqldef.C24_added_columns",
    "Sqldef.C24_missing_column_is_added_once"
   ],
   "note": "For schemas that create no table twice and tables without repeated column names."
  },
  {
   "property": "C25",
   "status": "partial",
   "theorems": [
    "Sqldef.C25_wanted_index_is_created_again",
    "Sqldef.C25_dropped_indexes",
    "Sqldef.C25_obsolete_index_is_dropped",
    "Sqldef.C25_missing_index_is_created",
    "Sqldef.C25_sqlite3_drops_nothing",
    "Sqldef.C25_drop_index_text"
   ],
   "note": "Proved for the generated statements of all dialects; the text of DROP INDEX is empty for SQLite (C25_sqlite3_drops_nothing), so an obsolete index stays there."
  },
  {
   "property": "C26",
   "status": "proved",
   "theorems": [
    "Sqldef.C26_order_of_statements"
   ],
   "note": "For every table present in both schemas; schemas that create no table twice."
  },
  {
   "property": "C27",
   "status": "proved",
   "theorems": [
    "Sqldef.C27_add_column_without_auto_increment",
    "Sqldef.C27_removed_before_primary_key_is_dropped",
    "Sqldef.C27_set_after_keys_are_added",
    "Sqldef.C27_is_set",
    "Sqldef.C27_is_removed"
   ],
   "note": "Schemas that create no table twice."
  },
  {
   "property": "C28",
   "status": "partial",
   "theorems": [
    "Sqldef.C28_mysql_order_partial",
    "Sqldef.C28_mysql_order_missed",
    "Sqldef.C28_mysql_progress",
    "Sqldef.C28_mysql_repeated_runs_reach_the_order",
    "Sqldef.C28_parsed_columns_are_numbered",
    "Sqldef.C28_other_dialects_append"
   ],
   "note": "The first half is false: one run misses the order when common columns are permuted (C28_mysql_order_missed). Proved: one run reaches the order if the common columns keep their relative order; every run brings one more column into its place; as many runs as the table has columns reach the order. For the changes described by Supported."
  },
  {
   "property": "C29",
   "status": "proved",
   "theorems": [
    "Sqldef.C29_only_own_definitions_matter",
    "Sqldef.C29_unchanged_table_is_not_touched"
   ],
   "note": "Schemas that create no table twice; the unchanged table is in dump-normal form."
  },
  {
   "property": "C30",
   "status": "proved",
   "theorems": [
    "Sqldef.C30_order_of_definitions",
    "Sqldef.C30_order_within_a_table",
    "Sqldef.C30_swap"
   ],
   "note": "For every reordering that keeps the order of the definitions about the same table and of those about no table; schemas that create no table twice."
  },
  {
   "property": "C31",
   "status": "partial",
   "theorems": [
    "Sqldef.C31_undefined_table",
    "Sqldef.C31_current_undefined_table",
    "Sqldef.C31_index_defined_twice",
    "Sqldef.C31_index_of_table_defined_again",
    "Sqldef.C31_foreign_key_defined_twice",
    "Sqldef.C31_policy_defined_twice",
    "Sqldef.C31_view_defined_twice",
    "Sqldef.C31_table_created_twice_accepted",
    "Sqldef.C31_index_twice_in_table_accepted"
   ],
   "note": "No hypothesis on the schemas. Not detected by the code: a table created twice (C31_table_created_twice_accepted), an index repeated inside one CREATE TABLE (C31_index_twice_in_table_accepted)."
  },
  {
   "property": "C32",
   "status": "partial",
   "theorems": [
    "Sqldef.C32_generation_returns_partial",
    "Sqldef.C32_whole_run_returns_partial",
    "Sqldef.C32_exit_means_duplicate",
    "Sqldef.C32_index_option_without_value",
    "Sqldef.C32_obsolete_table_twice",
    "Sqldef.C32_statements_are_complete",
    "Sqldef.C32_plain_text_is_parsed_partial",
    "Sqldef.C32_plain_schemas_return_partial",
    "Sqldef.C32_replication_without_identity",
    "Sqldef.C32_empty_executable_comment",
    "Sqldef.C32_cast_of_nothing",
    "Sqldef.C32_using_btree"
   ],
   "note": "False for the code: NOT FOR REPLICATION without IDENTITY, an empty executable comment, a :: without operand in a CHECK and adding a MySQL index with USING BTREE to an existing table panic; a table to be dropped that the current schema creates twice ends the process (C32_replication_without_identity, C32_empty_executable_comment, C32_cast_of_nothing, C32_using_btree, C32_obsolete_table_twice). Proved end to end, from the two texts through tokenizer, grammar, actions, conversion and generator, for all texts without these constructs (C32_plain_schemas_return_partial), and for all complete definitions."
  },
  {
   "property": "C33",
   "status": "partial",
   "theorems": [
    "Sqldef.C33_data_type_refl",
    "Sqldef.C33_default_refl",
    "Sqldef.C33_check_refl",
    "Sqldef.C33_identity_refl",
    "Sqldef.C33_foreign_key_refl",
    "Sqldef.C33_policy_refl",
    "Sqldef.C33_trigger_refl",
    "Sqldef.C33_index_refl",
    "Sqldef.C33_repeated_option_differs",
    "Sqldef.C33_column_refl_iff",
    "Sqldef.C33_check_column_always_differs"
   ],
   "note": "Proved for all comparisons; for MySQL columns the exact condition (no CHECK, PRIMARY KEY written NOT NULL) and for indexes distinct option names are needed, with counterexamples otherwise."
  },
  {
   "property": "C34",
   "status": "partial",
   "theorems": [
    "Sqldef.C34_data_type_detected",
    "Sqldef.C34_scale_undetected",
    "Sqldef.C34_missing_length_undetected",
    "Sqldef.C34_column_detected",
    "Sqldef.C34_default_detected",
    "Sqldef.C34_default_undetected",
    "Sqldef.C34_index_detected",
    "Sqldef.C34_index_undetected",
    "Sqldef.C34_foreign_key_detected",
    "Sqldef.C34_foreign_key_undetected",
    "Sqldef.C34_check_detected",
    "Sqldef.C34_identity_detected",
    "Sqldef.C34_policy_detected",
    "Sqldef.C34_policy_undetected",
    "Sqldef.C34_trigger_detected",
    "Sqldef.C34_data_type_iff",
    "Sqldef.C34_column_iff",
    "Sqldef.C34_default_iff",
    "Sqldef.C34_check_iff",
    "Sqldef.C34_identity_iff",
    "Sqldef.C34_index_iff",
    "Sqldef.C34_primary_key_iff",
    "Sqldef.C34_foreign_key_iff",
    "Sqldef.C34_trigger_iff",
    "Sqldef.C34_policy_same",
    "Sqldef.C34_role_case_spurious"
   ],
   "note": "For each comparison the attributes whose change is noticed; counterexamples for the ones that go unnoticed (scale, missing length, string vs number default, index prefix lengths, removed options, referenced table of a foreign key, roles of policies)."
  },
  {
   "property": "C35",
   "status": "proved",
   "theorems": [
    "Sqldef.C35_same_type_iff",
    "Sqldef.C35_normalization_idempotent",
    "Sqldef.C35_tinyint_only_mysql"
   ],
   "note": ""
  },
  {
   "property": "C36",
   "status": "proved",
   "theorems": [
    "Sqldef.C36_quoted_name_iff",
    "Sqldef.C36_different_names_differ",
    "Sqldef.C36_table_name"
   ],
   "note": "Exact: read back if and only if the name is not empty and does not contain the closing quote."
  },
  {
   "property": "C37",
   "status": "partial",
   "theorems": [
    "Sqldef.C37_string_default_iff",
    "Sqldef.C37_quote_in_default"
   ],
   "note": "The property is false: quotes and backslashes are not escaped (C37_quote_in_default). Proved exactly when the default is read back (C37_string_default_iff)."
  },
  {
   "property": "C38",
   "status": "proved",
   "theorems": [
    "Sqldef.C38_create_view_iff",
    "Sqldef.C38_drop_view_iff",
    "Sqldef.C38_replace_view_iff",
    "Sqldef.C38_wanted_view_is_created_again"
   ],
   "note": ""
  },
  {
   "property": "C39",
   "status": "proved",
   "theorems": [
    "Sqldef.C39_create_trigger_iff",
    "Sqldef.C39_drop_trigger_iff",
    "Sqldef.C39_dropped_trigger_is_created_again",
    "Sqldef.C39_no_trigger_statements"
   ],
   "note": "Equality of triggers is the comparison characterised under C34."
  },
  {
   "property": "C40",
   "status": "partial",
   "theorems": [
    "Sqldef.C40_create_policy_iff",
    "Sqldef.C40_drop_policy_iff",
    "Sqldef.C40_wanted_policy_is_created_again",
    "Sqldef.C40_role_order_is_irrelevant",
    "Sqldef.C40_reordered_roles_are_equal",
    "Sqldef.C40_changed_roles_not_noticed"
   ],
   "note": "Proved relative to the comparison of policies, which misses changed roles if the conditions differ by parentheses (C40_changed_roles_not_noticed)."
  },
  {
   "property": "C41",
   "status": "partial",
   "theorems": [
    "Sqldef.C41_add_foreign_key_iff",
    "Sqldef.C41_drop_foreign_key_iff",
    "Sqldef.C41_kept_foreign_key_is_added_again",
    "Sqldef.C41_separate_foreign_key_is_not_added",
    "Sqldef.C41_sqlite3_keeps_obsolete_foreign_key"
   ],
   "note": "Exact for foreign keys of CREATE TABLE; the code never adds one defined by ALTER TABLE (C41_separate_foreign_key_is_not_added) and never drops one for SQLite (C41_sqlite3_keeps_obsolete_foreign_key)."
  },
  {
   "property": "C42",
   "status": "proved",
   "theorems": [
    "Sqldef.C42_calls_are_bounded",
    "Sqldef.C42_scanning_ends",
    "Sqldef.C42_every_call_consumes",
    "Sqldef.C42_end_is_final"
   ],
   "note": "At most as many tokens as characters; every call consumes; the end is final. Crashes are C49."
  },
  {
   "property": "C43",
   "status": "proved",
   "theorems": [
    "Sqldef.C43_quoted_name",
    "Sqldef.C43_quoted_name_only",
    "Sqldef.C43_string",
    "Sqldef.C43_string_only",
    "Sqldef.C43_every_string_can_be_written"
   ],
   "note": "Both directions: what is written is read, and only that is read."
  },
  {
   "property": "C44",
   "status": "partial",
   "theorems": [
    "Sqldef.C44_keyword",
    "Sqldef.C44_keyword_case",
    "Sqldef.C44_identifier_partial",
    "Sqldef.C44_dual"
   ],
   "note": "False for one word: the identifier DUAL is lower-cased (C44_dual)."
  },
  {
   "property": "C45",
   "status": "proved",
   "theorems": [
    "Sqldef.C45_white_space",
    "Sqldef.C45_white_space_before_punctuation",
    "Sqldef.C45_between_calls"
   ],
   "note": "As texts (behind any prefix that is read whole) and between any two calls of Scan, also inside a MySQL-specific comment."
  },
  {
   "property": "C46",
   "status": "proved",
   "theorems": [
    "Sqldef.C46_encoded_string_is_read_back"
   ],
   "note": "Strings are lists of characters; the bytes of a character outside ASCII are all copied."
  },
  {
   "property": "C47",
   "status": "partial",
   "theorems": [
    "Sqldef.C47_columns_reached_partial",
    "Sqldef.C47_mysql_unique_partial",
    "Sqldef.C47_mssql_type_is_kept",
    "Sqldef.C47_sqlite_column_is_kept",
    "Sqldef.C47_mysql_auto_increment_reverts",
    "Sqldef.C47_former_key_column_stays_not_null",
    "Sqldef.C47_unique_is_not_added"
   ],
   "note": "Proved for the changes described by Supported on a schema as a server reports it: type, NOT NULL, default, CHECK, AUTO_INCREMENT, identity and the other attributes for MySQL and Postgres; default, CHECK and IDENTITY for SQL Server; new columns in all dialects. Proved false otherwise: SQL Server never changes a type or NOT NULL, SQLite never changes an existing column, UNIQUE is not added to an existing column outside MySQL, a MySQL column that loses AUTO_INCREMENT reverts other changes, a column leaving the primary key stays NOT NULL."
  },
  {
   "property": "C48",
   "status": "proved",
   "theorems": [
    "Sqldef.C48_no_statements_iff",
    "Sqldef.C48_difference_is_noticed",
    "Sqldef.C48_undesired_key_is_not_noticed",
    "Sqldef.C48_sqlite_attributes_do_not_count"
   ],
   "note": "Exact characterisation (Agrees, Verif/Spec/Agrees.lean). What a dialect does not compare is visible in that definition: SQLite compares column names only, SQL Server neither type nor NOT NULL, and both keep a primary key that is not desired (C48_undesired_key_is_not_noticed)."
  },
  {
   "property": "C49",
   "status": "partial",
   "theorems": [
    "Sqldef.C49_no_crash_partial",
    "Sqldef.C49_empty_special_comment"
   ],
   "note": "The property is false: an empty MySQL-specific comment panics (C49_empty_special_comment). Proved for all texts without one."
  },
  {
   "property": "C50",
   "status": "partial",
   "theorems": [
    "Sqldef.C50_printed_name_partial",
    "Sqldef.C50_postgres_quotes",
    "Sqldef.C50_beyond_bmp",
    "Sqldef.C50_dual"
   ],
   "note": "False for Postgres, where backquotes are used (C50_postgres_quotes), for characters beyond U+FFFF (C50_beyond_bmp) and for DUAL (C50_dual). Proved for every other name."
  },
  {
   "property": "C51",
   "status": "proved",
   "theorems": [
    "Sqldef.C51_definition_says_what_the_statement_says",
    "Sqldef.C51_create_table_accepted",
    "Sqldef.C51_create_index_accepted",
    "Sqldef.C51_other_statements_are_refused"
   ],
   "note": "For every behaviour of the SQL grammar (Env.parse) and every statement."
  },
  {
   "property": "C52",
   "status": "partial",
   "theorems": [
    "Sqldef.C52_statement_says_what_is_meant_partial",
    "Sqldef.C52_generated_texts_partial",
    "Sqldef.C52_same_text_same_meaning_partial",
    "Sqldef.C52_quote_in_name",
    "Sqldef.C52_quote_in_default"
   ],
   "note": "False for names with the closing quote of the dialect (C52_quote_in_name) and string defaults with a quote (C52_quote_in_default). Proved for every statement whose names can be quoted and whose parts kept as text are sequences of whole tokens."
  },
  {
   "property": "C53",
   "status": "proved",
   "theorems": [
    "Sqldef.C53_empty_database",
    "Sqldef.C53_empty_file",
    "Sqldef.C53_file_is_passed_on",
    "Sqldef.C53_teardown"
   ],
   "note": "Separate foreign keys give no statement and triggers are rebuilt from their parts (MySQL, SQL Server); both are part of the exact statement C53_empty_database."
  },
  {
   "property": "C54",
   "status": "proved",
   "theorems": [
    "Sqldef.C54_parser_never_faults",
    "Sqldef.C54_parser_returns",
    "Sqldef.C54_tokens_are_accepted_or_refused",
    "Sqldef.C54_every_text_is_parsed_to_an_end",
    "Sqldef.C54_result_of_a_text"
   ],
   "note": "About the driver and its tables (1702 states, 999 rules) with the lexer and the actions as a parameter. The tables are checked by the kernel against a certificate, state by state."
  },
  {
   "property": "C55",
   "status": "proved",
   "theorems": [
    "Sqldef.C55_notes_change_nothing",
    "Sqldef.C55_accepted_is_a_sentence",
    "Sqldef.C55_result_follows_the_derivation",
    "Sqldef.C55_accepted_list"
   ],
   "note": "Soundness: every accepted text is a sentence. The converse (every sentence is accepted) is false of a grammar with precedences and is not claimed."
  },
  {
   "property": "C56",
   "status": "proved",
   "theorems": [
    "Sqldef.C56_create_table_is_understood",
    "Sqldef.C56_create_table_in_any_layout",
    "Sqldef.C56_create_table_is_a_definition",
    "Sqldef.C56_cast_becomes_convert",
    "Sqldef.C56_minus_needs_a_blank",
    "Sqldef.C56_schema_of_a_reference_is_lost",
    "Sqldef.C56_now_becomes_a_bit_string"
   ],
   "note": "The whole chain scanner - tables - actions, for the statements of Spec/Written.lean. Exact, and therefore with the losses of the code: the schema of a referenced table is dropped (C56_schema_of_a_reference_is_lost), DEFAULT NOW() becomes the bit string b'now' (C56_now_becomes_a_bit_string), comments of columns, ZEROFILL, the columns of an inline REFERENCES and the method of USING are ignored. CHECK conditions (Spec/Condition.lean) are kept as the text that the code prints for them: a cast becomes convert(..) (C56_cast_becomes_convert), MOD becomes %, CURRENT_DATE gets parentheses; `a -1` is refused (C56_minus_needs_a_blank). Subqueries, CASE and ESCAPE in conditions and keywords as names are not in the language."
  },
  {
   "property": "C57",
   "status": "proved",
   "theorems": [
    "Sqldef.C57_statement_is_understood",
    "Sqldef.C57_statement_in_any_layout",
    "Sqldef.C57_statement_is_a_definition",
    "Sqldef.C57_file_is_understood",
    "Sqldef.C57_layout_of_the_current_schema_is_irrelevant",
    "Sqldef.C57_rewriting_changes_nothing",
    "Sqldef.C57_method_and_options_are_lost",
    "Sqldef.C57_ignore_is_lost",
    "Sqldef.C57_plain_index_is_clustered"
   ],
   "note": "For the language of Spec/Written.lean and Spec/WrittenMore.lean. Exact, and therefore with the losses of the code: the access method of an index, its options and CLUSTERED where a method is named after the table (C57_method_and_options_are_lost), IGNORE (C57_ignore_is_lost); a plain CREATE INDEX counts as clustered (C57_plain_index_is_clustered). C57_rewriting_changes_nothing needs the schema to be in dump-normal form, as C18 does. CREATE VIEW and CREATE TRIGGER are not in the language."
  },
  {
   "property": "C58",
   "status": "proved",
   "theorems": [
    "Sqldef.C58_table_dump_is_what_the_catalog_says",
    "Sqldef.C58_dump_is_understood",
    "Sqldef.C58_only_what_the_catalog_says_matters",
    "Sqldef.C58_described_schema_changes_nothing",
    "Sqldef.C58_export_is_a_fixed_point",
    "Sqldef.C58_indexes_named_like_keys_are_invisible",
    "Sqldef.C58_policies_outside_public_fail",
    "Sqldef.C58_some_tables_cannot_be_read",
    "Sqldef.C58_composite_foreign_key_export_fails",
    "Sqldef.C58_precision_of_numbers_is_not_seen"
   ],
   "note": "For the catalogs of Spec/Adapter.lean, with the real parser. Outside of them the code fails, and this is proved too: indexes named like keys are invisible (C58_indexes_named_like_keys_are_invisible), a policy outside public makes every run fail (C58_policies_outside_public_fail), the export of a composite foreign key cannot be applied (C58_composite_foreign_key_export_fails), tables with bytea, interval, inet, gen_random_uuid() and others, and tables without columns, make every run fail (C58_some_tables_cannot_be_read), the precision of numeric is not seen (C58_precision_of_numbers_is_not_seen). Views are left out."
  },
  {
   "property": "C59",
   "status": "proved",
   "theorems": [
    "Sqldef.C59_mysql_dump_is_understood",
    "Sqldef.C59_mysql_described_schema_changes_nothing",
    "Sqldef.C59_mysql_export_is_a_fixed_point",
    "Sqldef.C59_sqlite_dump_is_understood",
    "Sqldef.C59_sqlite_described_schema_changes_nothing",
    "Sqldef.C59_sqlite_export_is_a_fixed_point",
    "Sqldef.C59_some_mysql_tables_cannot_be_read",
    "Sqldef.C59_some_sqlite_tables_cannot_be_read",
    "Sqldef.C59_sqlite_indexes_are_invisible",
    "Sqldef.C59_sqlite_index_is_created_again",
    "Sqldef.C59_sqlite_prefix_is_invisible"
   ],
   "note": "For tables in the language of Spec/Written.lean, with the real parser. Outside of it the code fails, and this is proved too: answers of MySQL and tables of SQLite that cannot be read make every run fail (C59_some_mysql_tables_cannot_be_read, C59_some_sqlite_tables_cannot_be_read), indexes of SQLite outside of CREATE TABLE are never seen and created again by every run (C59_sqlite_indexes_are_invisible, C59_sqlite_index_is_created_again), tables of SQLite named sqlite... are not seen (C59_sqlite_prefix_is_invisible). Views and triggers are left out."
  },
  {
   "property": "C60",
   "status": "proved",
   "theorems": [
    "Sqldef.C60_only_the_difference",
    "Sqldef.C60_sqlite_tables_of_the_file_are_there",
    "Sqldef.C60_sqlite_second_run_changes_nothing"
   ],
   "note": "The first part (C60_only_the_difference) holds for MySQL and SQL Server as well. The other parts are for SQLite, which keeps the text of a CREATE TABLE; what is assumed about the server is the structure LiteServer (Spec/StoredText.lean), and a server with these properties is given (exLite_server). Tables that are altered are not covered here; see C06 and C19."
  },
  {
   "property": "C61",
   "status": "proved",
   "theorems": [
    "Sqldef.C61_server_answers",
    "Sqldef.C61_tables_are_listed",
    "Sqldef.C61_table_is_described_by_itself",
    "Sqldef.C61_other_tables_do_not_matter",
    "Sqldef.C61_described_server_is_left_alone",
    "Sqldef.C61_export_is_a_fixed_point_in_any_order",
    "Sqldef.C61_tables_of_the_same_name_are_mixed_up",
    "Sqldef.C61_unique_pairs_are_shown_as_unique_columns",
    "Sqldef.C61_foreign_keys_of_the_same_name_are_multiplied",
    "Sqldef.C61_partitioned_tables_have_no_columns"
   ],
   "note": "The queries are modelled as joins over the relations of the server (Model/PgQuery.lean). The conditions are necessary in that the code mixes things up without them, and this is proved too: tables of the same name in two schemas are shown with repeated columns and one joint primary key, which is dropped and added again in every run (C61_tables_of_the_same_name_are_mixed_up); unique pairs are shown as unique columns (C61_unique_pairs_are_shown_as_unique_columns); foreign keys of the same name are multiplied (C61_foreign_keys_of_the_same_name_are_multiplied); a partitioned table is shown without columns (C61_partitioned_tables_have_no_columns), so that every run fails. The query for views is the subject of C73."
  },
  {
   "property": "C62",
   "status": "proved",
   "theorems": [
    "Sqldef.C62_order_of_definitions_is_irrelevant",
    "Sqldef.C62_reordering_changes_nothing_or_is_refused",
    "Sqldef.C62_order_of_statements_is_irrelevant",
    "Sqldef.C62_any_statements_in_any_order",
    "Sqldef.C62_any_reordering_changes_nothing_or_is_refused"
   ],
   "note": "For schemas in dump-normal form (see C18), as definitions and as text; as text for any statements, views and triggers included, in every dialect (C62_any_statements_in_any_order)."
  },
  {
   "property": "C63",
   "status": "proved",
   "theorems": [
    "Sqldef.C63_table_dump_is_what_the_catalog_says",
    "Sqldef.C63_table_dump_is_determined",
    "Sqldef.C63_dump_is_understood",
    "Sqldef.C63_only_what_the_catalog_says_matters",
    "Sqldef.C63_described_schema_changes_nothing",
    "Sqldef.C63_export_is_a_fixed_point",
    "Sqldef.C63_other_lengths_are_lost",
    "Sqldef.C63_two_indexes_cannot_be_read",
    "Sqldef.C63_some_tables_cannot_be_read",
    "Sqldef.C63_schemas_are_mixed_up"
   ],
   "note": "For the catalogs of Spec/MsAdapter.lean, without views and triggers. What lies outside is proved to go wrong: two indexes of a table are written without a separator and make every run fail (C63_two_indexes_cannot_be_read), lengths of types like nvarchar are lost (C63_other_lengths_are_lost), tables of the same name in different schemas are mixed up (C63_schemas_are_mixed_up), names that need brackets, unknown types and ON DELETE SET DEFAULT cannot be read (C63_some_tables_cannot_be_read)."
  },
  {
   "property": "C64",
   "status": "proved",
   "theorems": [
    "Sqldef.C64_status",
    "Sqldef.C64_nothing_without_one_database",
    "Sqldef.C64_session",
    "Sqldef.C64_credentials",
    "Sqldef.C64_sqlite_file"
   ],
   "note": "The parsing of the flags itself (go-flags) is not modelled."
  },
  {
   "property": "C65",
   "status": "partial",
   "theorems": [
    "Sqldef.C65_one_reading",
    "Sqldef.C65_what_the_address_says",
    "Sqldef.C65_credentials_arrive_partial",
    "Sqldef.C65_space_is_lost",
    "Sqldef.C65_database_name_is_cut",
    "Sqldef.C65_socket_is_no_server"
   ],
   "note": "The property is false: spaces in user and password become plus signs (C65_space_is_lost), the name of the database is cut at a question mark (C65_database_name_is_cut), and the directory of a socket is read as part of the name of the database (C65_socket_is_no_server). Proved for all users and passwords without spaces, hosts and databases without delimiters; C65_what_the_address_says is exact with spaces."
  },
  {
   "property": "C66",
   "status": "proved",
   "theorems": [
    "Sqldef.C66_statement_in_any_layout",
    "Sqldef.C66_definition_in_any_layout",
    "Sqldef.C66_file_in_any_layout",
    "Sqldef.C66_layout_of_the_current_schema_is_irrelevant",
    "Sqldef.C66_layout_of_the_desired_schema_is_irrelevant",
    "Sqldef.C66_nothing_to_do_in_any_layout",
    "Sqldef.C66_rewriting_changes_nothing",
    "Sqldef.C66_comments_in_views_matter"
   ],
   "note": "Parametricity: two tokenizers that hand out the same tokens lead the driver of the parser to the same result (Proofs/YyAlike.lean), and the generator commutes with every change of the texts of the statements (Proofs/Retext.lean). Comments are not part of a layout: in a query they are kept in the definition of a view (C66_comments_in_views_matter). Placeholders such as ? and the MySQL comments that are executed are not among the tokens of Spec/Layout.lean."
  },
  {
   "property": "C67",
   "status": "proved",
   "theorems": [
    "Sqldef.C67_view_is_understood",
    "Sqldef.C67_view_is_a_definition",
    "Sqldef.C67_file_is_understood",
    "Sqldef.C67_view_is_replaced_iff_its_query_changes",
    "Sqldef.C67_schemas_of_views_are_lost",
    "Sqldef.C67_letter_case_of_queries_is_lost"
   ],
   "note": "For the language of Spec/Query.lean: no UNION, subqueries, CASE, hints, locks or comments in the query. What is lost by design of the code is stated too: the schema of a view (two views with the same name in two schemas are refused, C67_schemas_of_views_are_lost), and letter case, in strings as well (C67_letter_case_of_queries_is_lost: a view whose query differs in the case of a string is not replaced)."
  },
  {
   "property": "C68",
   "status": "proved",
   "theorems": [
    "Sqldef.C68_postgres_dump_is_understood",
    "Sqldef.C68_postgres_described_schema_changes_nothing",
    "Sqldef.C68_postgres_export_is_a_fixed_point",
    "Sqldef.C68_mysql_dump_is_understood",
    "Sqldef.C68_mysql_described_schema_changes_nothing",
    "Sqldef.C68_mysql_export_is_a_fixed_point",
    "Sqldef.C68_sqlite_dump_is_understood",
    "Sqldef.C68_sqlite_described_schema_changes_nothing",
    "Sqldef.C68_sqlite_export_is_a_fixed_point",
    "Sqldef.C68_spaces_in_strings_are_lost",
    "Sqldef.C68_some_names_of_views_cannot_be_read"
   ],
   "note": "For databases without triggers whose views have names that can be written without quotes and different names up to their schema, and queries of the language of C67. What the rows of the catalog say is stated in Spec/ViewRows.lean. Limits of the code are stated too: double spaces and line ends inside strings are lost (C68_spaces_in_strings_are_lost), and a view with a space or hyphen in its name makes every run fail (C68_some_names_of_views_cannot_be_read)."
  },
  {
   "property": "C69",
   "status": "proved",
   "theorems": [
    "Sqldef.C69_trigger_is_understood",
    "Sqldef.C69_trigger_is_a_definition",
    "Sqldef.C69_trigger_is_created_iff",
    "Sqldef.C69_trigger_is_dropped_iff",
    "Sqldef.C69_mysql_dump_is_understood",
    "Sqldef.C69_mysql_described_schema_changes_nothing",
    "Sqldef.C69_mysql_export_is_a_fixed_point",
    "Sqldef.C69_spaces_and_case_and_schema_are_lost"
   ],
   "note": "For triggers whose statements are INSERT/REPLACE with rows of values, UPDATE of one table and DELETE of one table (Spec/Change.lean says what is left out). Limits of the code are stated too: spaces and letter case, also those in strings, and the schema of the table are not compared (C69_spaces_and_case_and_schema_are_lost), and a trigger that the desired schema does not have is never dropped (C69_trigger_is_dropped_iff)."
  },
  {
   "property": "C70",
   "status": "proved",
   "theorems": [
    "Sqldef.C70_mssql_dump_is_understood",
    "Sqldef.C70_described_schema_changes_nothing",
    "Sqldef.C70_export_is_a_fixed_point",
    "Sqldef.C70_line_breaks_are_lost",
    "Sqldef.C70_broken_line_cannot_be_read",
    "Sqldef.C70_broken_line_is_created_forever"
   ],
   "note": "For the views of C67 and the triggers of C69. Limits of the code are stated too: line breaks in views are deleted and not replaced (C70_line_breaks_are_lost), so a view stored as AS<newline>SELECT makes every run fail and one stored as a<newline>FROM t is dropped and created by every run."
  },
  {
   "property": "C71",
   "status": "proved",
   "theorems": [
    "Sqldef.C71_order_within_a_table_is_irrelevant",
    "Sqldef.C71_order_is_irrelevant",
    "Sqldef.C71_order_of_items_is_irrelevant",
    "Sqldef.C71_order_matters_for_mysql",
    "Sqldef.C71_order_of_statements_is_irrelevant"
   ],
   "note": "The desired schema is in dump-normal form and has at most one primary key per table (OneKey). C71_order_matters_for_mysql shows why MySQL is excluded."
  },
  {
   "property": "C72",
   "status": "proved",
   "theorems": [
    "Sqldef.C72_server_answers",
    "Sqldef.C72_tables_are_listed",
    "Sqldef.C72_table_is_described_by_itself",
    "Sqldef.C72_names_are_unique",
    "Sqldef.C72_views_and_triggers_are_listed",
    "Sqldef.C72_described_server_is_left_alone",
    "Sqldef.C72_export_is_a_fixed_point_in_any_order",
    "Sqldef.C72_single_keys_are_in_order",
    "Sqldef.C72_checks_of_tables_are_invisible",
    "Sqldef.C72_encrypted_definitions_cannot_be_read",
    "Sqldef.C72_order_of_keys_is_not_asked_for",
    "Sqldef.C72_rows_are_multiplied"
   ],
   "note": "The queries are modelled as joins over the system tables (Model/MsQuery.lean). The conditions are necessary: if the columns of a key come in another order, the run tries to add the primary key once more (C72_order_of_keys_is_not_asked_for; with one column per key nothing has to be assumed, C72_single_keys_are_in_order); foreign keys of several columns and columns with two checks are shown several times (C72_rows_are_multiplied); checks of whole tables are invisible (C72_checks_of_tables_are_invisible). Nothing can be read if a view or a trigger is encrypted (C72_encrypted_definitions_cannot_be_read). Triggers on the database as a whole are not modelled."
  },
  {
   "property": "C73",
   "status": "proved",
   "theorems": [
    "Sqldef.C73_server_answers",
    "Sqldef.C73_views_are_listed",
    "Sqldef.C73_no_view_is_missed",
    "Sqldef.C73_described_server_is_left_alone",
    "Sqldef.C73_export_is_a_fixed_point_in_any_order",
    "Sqldef.C73_views_named_like_system_views_cannot_be_exported",
    "Sqldef.C73_views_named_like_system_views_are_replaced"
   ],
   "note": "The query is modelled as a join over the relations of the server (Model/PgQuery.lean). The condition on the names is necessary: a view called like one of the system is listed with the queries of both, so that the export cannot be applied (C73_views_named_like_system_views_cannot_be_exported) and, depending on the order of the rows, the view is replaced in every run (C73_views_named_like_system_views_are_replaced)."
  },
  {
   "property": "C74",
   "status": "proved",
   "theorems": [
    "Sqldef.C74_mysql_statements_in_any_order",
    "Sqldef.C74_mysql_export_is_a_fixed_point_in_any_order",
    "Sqldef.C74_sqlite_statements_in_any_order",
    "Sqldef.C74_sqlite_export_is_a_fixed_point_in_any_order"
   ],
   "note": "For tables, views and triggers as in C59, C68 and C69. The query for the rows of sqlite_master takes the first row that belongs to a table, hence the condition on the order (see C59)."
  },
  {
   "property": "C75",
   "status": "proved",
   "theorems": [
    "Sqldef.C75_order_of_the_database",
    "Sqldef.C75_description_in_any_order",
    "Sqldef.C75_postgres_answers",
    "Sqldef.C75_mysql_servers",
    "Sqldef.C75_sqlite_databases",
    "Sqldef.C75_order_within_tables",
    "Sqldef.C75_items_in_any_order",
    "Sqldef.C75_sql_server_answers"
   ],
   "note": "For the servers, tables, views and triggers as in C73 and C74. SQL Server as in C72. The columns of a table may come in any order except for MySQL, where it is part of the schema (C71). The columns of an index keep their order."
  },
  {
   "property": "C76",
   "status": "proved",
   "theorems": [
    "Sqldef.C76_both_orders",
    "Sqldef.C76_statement_by_statement",
    "Sqldef.C76_same_statements",
    "Sqldef.C76_nothing_in_any_order"
   ],
   "note": "Extends C30 to texts, to views and triggers and to parts of the same table in any order. The condition that each statement comes after its table is necessary: C31."
  },
  {
   "property": "C77",
   "status": "partial",
   "theorems": [
    "Sqldef.C77_server_answers",
    "Sqldef.C77_tables_are_listed",
    "Sqldef.C77_triggers_are_listed",
    "Sqldef.C77_names_of_views",
    "Sqldef.C77_views_are_listed_partial",
    "Sqldef.C77_export_is_a_fixed_point_partial",
    "Sqldef.C77_other_databases_partial",
    "Sqldef.C77_view_of_another_database"
   ],
   "note": "False for views: the query for the definition does not mention the database, so a view of the same name in another database may be read instead (C77_view_of_another_database). Proved for tables and triggers, and for views if no other database has a view of the same name. Names without quotes; tables, views and triggers of the runs as in C74."
  },
  {
   "property": "C78",
   "status": "proved",
   "theorems": [
    "Sqldef.C78_one_reading",
    "Sqldef.C78_credentials_arrive",
    "Sqldef.C78_no_confusion",
    "Sqldef.C78_no_delimiters"
   ],
   "note": "For every user, password and database name, and every host of letters, digits and -._~:[]. The escaping functions of net/url are modelled byte by byte."
  },
  {
   "property": "C79",
   "status": "proved",
   "theorems": [
    "Sqldef.C79_tables_and_views_of_the_file_are_there",
    "Sqldef.C79_second_run_changes_nothing",
    "Sqldef.C79_only_the_difference"
   ],
   "note": "Tables as in C60, views with queries in the language of C67 and with names in small letters. No table has the name of a view. A view that differs is replaced (C67), and a table that differs is altered (C02 and others); the state after these is not part of this property."
  },
  {
   "property": "C80",
   "status": "partial",
   "theorems": [
    "Sqldef.C80_views_are_changed_where_they_are_partial",
    "Sqldef.C80_drops_in_the_default_schema",
    "Sqldef.C80_view_of_another_schema_counts"
   ],
   "note": "False for Postgres and SQL Server with views outside the default schema: the schema of a view is not kept, so the script drops a view of that name in public or dbo instead (C80_drops_in_the_default_schema), and a view of the file counts as existing if another schema has one of the same name and query (C80_view_of_another_schema_counts). Proved for views in the default schema with names in small letters and without dots; queries in the language of C67."
  },
  {
   "property": "C81",
   "status": "partial",
   "theorems": [
    "Sqldef.C81_what_is_there",
    "Sqldef.C81_everything_stays_and_is_created_partial",
    "Sqldef.C81_wanted_table_is_left_out",
    "Sqldef.C81_changed_view_is_created_while_it_is_there"
   ],
   "note": "The property is false: a wanted table or view whose text contains the letters DROP, say in the name of a column, is left out without an error (C81_wanted_table_is_left_out; C81_what_is_there is exact), and for SQLite and SQL Server a view with another query is created while the old one is still there, since only its DROP VIEW is skipped (C81_changed_view_is_created_while_it_is_there). Proved in the setting of C79 for files without these letters."
  },
  {
   "property": "C82",
   "status": "partial",
   "theorems": [
    "Sqldef.C82_tables_in_the_order_of_the_database",
    "Sqldef.C82_referencing_tables_first_partial",
    "Sqldef.C82_tables_are_dropped_before_views",
    "Sqldef.C82_table_of_a_dropped_view_is_refused",
    "Sqldef.C82_referenced_table_is_refused"
   ],
   "note": "The property is false. The tables that the file does not define are dropped in the order in which the database lists them (C82_tables_in_the_order_of_the_database, exact), whatever foreign keys they have, and all of them before any view that the file does not mention (C82_tables_are_dropped_before_views). So a server that does not drop a table in use ends the run with an error, for every such pair of a table and a view (C82_table_of_a_dropped_view_is_refused) and of two tables listed in the wrong order (C82_referenced_table_is_refused). Proved for databases that list tables with foreign keys before the tables they refer to."
  },
  {
   "property": "C83",
   "status": "proved",
   "theorems": [
    "Sqldef.C83_needed_tables_are_there",
    "Sqldef.C83_statement_of_the_file",
    "Sqldef.C83_foreign_key",
    "Sqldef.C83_needed_views_are_there"
   ],
   "note": "The theorems quantify over an arbitrary function that says which tables or views a statement of the file needs."
  }
 ]
}