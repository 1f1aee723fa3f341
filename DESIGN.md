# A machine-checked model of sqldef in Lean 4

The subject is k0kubun/sqldef (`/repo`, Go). The model is in `lean/Verif`, checked by Lean 4.33.0.

## 1. Layout

| Directory | Contents |
|---|---|
| `Verif/Base` | Go strings and the functions of `strings`/`strconv` that the code calls |
| `Verif/Model` | the model of the Go code, function by function, each definition citing file and lines |
| `Verif/Spec` | small specifications, written without the model's helpers (what a database does with a statement, what "split", "quoted", ... mean) |
| `Verif/Proofs` | helper lemmas |
| `Verif/Props` | the property theorems, one file per group, each with non-vacuity examples |

## 2. How the code is modelled

* **Strings** are lists of Unicode scalar values (`Str`). Comparison, concatenation, search and splitting at
  ASCII separators agree on bytes and characters for valid UTF-8; invalid UTF-8 is outside the model. The scanner
  model reads characters where the code reads bytes with `utf8.DecodeRune`; the two agree on valid UTF-8.
* **Results**: a function returning `error` returns `Except Err`; `panic` (nil dereference, index out
  of range) and `log.Fatalf` are further constructors of `Err`, never totalised away. The partial list
  of statements that Go returns together with a non-nil error is dropped: `Run` never looks at it.
* **Generated statements** are values of an inductive type `Stmt` with one constructor per `Sprintf`
  of the generator; `Stmt.render` gives the exact text per dialect. The user's own statements are
  carried verbatim. The function that the command calls, `generateIdempotentDDLs`, returns the texts.
* **Pointers**: `*T` used as an optional value is `Option T`. The generator's tables are reached
  through pointers and updated in place; the model threads the lists of tables and updates the first
  table of the given name, which is what the pointer returned by `findTableByName` designates.
  Pointer comparison `current.check == desired.check` (the two come from different parses) is true
  exactly if both are nil.
* **The SQL grammar** is a parameter of the generator model (`Env.parse`): an arbitrary function from mode and text to a
  syntax tree or an error. Theorems about the generator and the command hold for every such function. `Sql.env` is the
  instance that models `sqlparser.ParseStrictDDLWithMode`: the tokenizer, the driver of the generated parser (`Model/Yy.lean`,
  transcribed from the end of parser.go), its tables (`Model/YyTables.lean`) and the actions (`Model/YyActions.lean`).
  Tables, the grammar of parser.y (`Spec/Grammar.lean`) and the actions are transcribed by `tools/yacc.py` and
  `tools/actions.py`, which read parser.go and parser.y; these two scripts belong to the reading of the code. Syntax trees of
  queries and expressions are kept as the text that `Format` gives them (`none` if formatting panics), with the few parts
  that the actions look into; the trees of definitions (`DDL`, `TableSpec`, ...) are complete.
* **Floats**: the decimal text of a float literal (`%f` of `ParseFloat`) is a parameter (`Env.fmtFloat`).
* **The database** is a parameter for the command level: an arbitrary state machine `Db σ` giving the outcome of
  every call. For the convergence properties `Verif/Spec/Catalog.lean` defines what each
  kind of statement does to a catalogue of tables.

The generator keeps a simulated copy of the current schema and mutates it. `Verif/Proofs/Stateless.lean`
(`diff_stateless`) proves that its output is a function of the two schemas as given, definition by definition and
table by table; most theorems about the generator go through this refinement. `Verif/Proofs/Script.lean` and
`Shapes.lean` say which statements can occur for which reason.

### Modelled

| Code | Model |
|---|---|
| `sqldef.go`: `Run`, `readFile`, `showDDLs` | `Model/Run.lean` |
| `adapter/database.go`: `DumpDDLs`, `RunDDLs` | `Model/Run.lean` |
| `adapter/postgres/postgres.go`, `adapter/mssql/mssql.go`, `adapter/mysql/mysql.go`, `adapter/sqlite3/sqlite3.go`: from the rows of the queries to the text of the dump | `Model/Adapter.lean` |
| `adapter/postgres/postgres.go`: the queries | `Model/PgQuery.lean` |
| `adapter/mssql/mssql.go`: the queries | `Model/MsQuery.lean` |
| `adapter/mysql/mysql.go`: the queries | `Model/MyQuery.lean` |
| `cmd/*/*.go`: `parseOptions` after the flags, `main`; `adapter/postgres/postgres.go`: `postgresBuildDSN` | `Model/Command.lean` |
| `adapter/mssql/mssql.go`: `mssqlBuildDSN`, with `url.URL.String`, `url.Userinfo.String` and `url.Values.Encode` | `Model/MsAddress.lean` |
| `schema/parser.go` (all), `schema/ast.go` | `Model/Parser.lean`, `Model/Ast.lean`, `Model/SqlAst.lean` |
| `schema/generator.go` (all of generation, comparison, rendering, clean-up) | `Model/Generator.lean`, `Model/Compare.lean`, `Model/Render.lean` |
| `sqlparser/token.go`: `Scan` and all it calls, `keywords`, `Lex` | `Model/Scanner.lean`, `Model/Keywords.lean`, `Model/Lexer.lean` |
| `sqlparser/parser.go`: `yyParse`, its tables, `yyTok1`..`yyTok3`, token constants | `Model/Yy.lean`, `Model/YyTables.lean`, `Model/TokenCodes.lean` |
| `sqlparser/parser.y`: all 999 rules and their actions | `Spec/Grammar.lean`, `Model/YyActions.lean`, `Model/SymType.lean` |
| `sqlparser/ast.go`: `ParseStrictDDLWithMode`, `SplitStatement`, `SplitStatementToPieces`, the `Format` methods that the actions and the conversion reach | `Model/SqlParse.lean`, `Model/Lexer.lean`, `Model/SqlNodes.lean` |
| `sqlparser/ast.go`: `formatID`, `Backtick`, `encodeBytesSQL` | `Model/Format.lean` |

Two tables of the code are looked up in search trees, because the kernel evaluates the concrete examples: the keywords
(`keywordTree_eq` proves that the tree answers as the list of `token.go`) and the names of the token codes
(`tokenTree_eq`). The long texts of the examples are written `txt "…"`; `txt_eq` proves that this is `lit "…"`.

### Not modelled

The parsing of flags (go-flags) in `cmd/*`, the address built for MySQL (by a function of the driver), what the servers do with the statements of the tool beyond the catalogue semantics below (in theorems about the command the whole adapter is the parameter `Db`), the parts of the
`sqlparser` package that sqldef never calls (normalizer, analyzer, redaction, encodable), time and concurrency (the tool is
sequential), and memory exhaustion.

### The generated parser

`Proofs/YyCertificate.lean` (written by `tools/yacc.py`) lists the LR items of the 1702 states. Nothing in it is trusted:
`Proofs/YyShifts.lean`, `YyGotos.lean` and `YyFacts.lean` check every state, token and rule in the kernel (`decide +kernel`), and
`YyDriver`, `YyRuns`, `YySound` turn the checks into theorems about every run. Likewise `tools/whole.py` and `tools/casts.py`
write tables (`WholeTable`, `YyLast`) that the kernel checks.

`tools/conformance.py` compares the model with the expectations in the tests of /repo, as text: of the 656 inputs of
parse_test.go all agree; of the 452 `assertApplyOutput` cases of cmd/*_test.go 421 give the expected text exactly, and the other
31 differ only because the test's current schema is what a server reports and not the file of the step before. These are tests of the
reading of the code and no part of a proof.

### Catalogue semantics (`Spec/Catalog.lean`, `Spec/Schema.lean`)

Applying a statement to a catalogue is specified per dialect: CREATE adds the described table, ALTER changes the named
column, index or key, a reference to a missing or an already existing object fails. Simplifications: data in the tables
(and therefore failures that depend on data) is not modelled, names are compared exactly, and a statement of the user
has the effect of the definition it was parsed to.

## 3. Plan per property

| Id | What is modelled, how it is proved |
|---|---|
| C01, C02, C08, C09 | `Run` as a function to a trace of database calls and output; case analysis, for all parameters |
| C03 | `RunDDLs`; `Stmt.render` contains `DROP` for every destructive `Stmt`, by substring lemmas on concatenations; the empty statement emitted for SQLite indexes is listed |
| C04, C05 | `RunDDLs` against an arbitrary database; induction on the list of statements; refinement to a transactional store |
| C06 | negation proved (the commit error is discarded); partial theorem without commit failure |
| C07 | `showDDLs` and `RunDDLs` outputs, induction |
| C10 | `DumpDDLs`, induction over the object lists |
| C11, C12, C13 | `parseDDLs` over an arbitrary SQL parser; split/join inverse laws by induction |
| C14 | negation proved by a concrete input; partial theorem for texts without semicolons is C11 |
| C15 | `normalizedTableName`; injectivity from the first dot |
| C16 | `atoi`/`%d` round trip by induction on decimal digits |
| C17 | `detectCharset`; exact characterisation and counterexample |
| C18 | `diff` of a list of definitions with itself, induction over the definition list with an invariant on the simulated tables; needs dump-normal form, counterexamples without it |
| C19, C20 | `Spec` catalogue semantics; invariant relating the simulated tables with the catalogue |
| C21-C27 | membership and order theorems about the generated list, through `diff_stateless` |
| C28 | list-moving semantics of FIRST/AFTER; counterexample for one application; partial theorem if the common columns keep their relative order; progress theorem for repeated application |
| C29, C30 | the table-wise decomposition of `diff` |
| C31 | errors by case analysis at an arbitrary position |
| C32 | negations (see 4); partial theorem for complete definitions; end to end from texts: an invariant of the parser's run gives every value on its stack the class of its symbol (`Proofs/WholeClasses.lean`), every action is proved to keep the classes (`WholeRules.lean`), and what no class can exclude (a `::` without operand) is excluded by the automaton (`YyCasts.lean`) |
| C33-C35 | comparison functions; reflexivity, exact characterisations, counterexamples |
| C36, C37 | quoting against the scanner's unquoting |
| C38-C41 | exact statements emitted for each case |
| C42-C45, C49 | scanner model (`token.go`): measure on the remaining input, round trips, locality of `Scan` |
| C46 | `encodeBytesSQL` and the scanner |
| C47 | what every column of the catalogue looks like after the script, per dialect; negations for the attributes a dialect ignores |
| C48 | `Agrees`: exact condition for an empty script, both directions |
| C50 | `formatID` against the scanner |
| C51 | `Says`: a relation between syntax tree and definition, field by field; conversion satisfies it |
| C52 | `ReadsAs`: the token sequence of every rendered statement under the scanner model |
| C54 | measure on (rest of the text, stack) from the certificate; every table index in range |
| C55 | invariant: the stack holds derivations of its symbols that read the tokens so far |
| C56 | a derivation is written down for every statement of the language; the tables read a part like the shortest part of its kind, so that induction leaves finitely many shapes for the kernel; its value is computed by induction. Conditions: a grammar of precedence levels (Spec/Condition.lean); by induction over the expression, from every state in which an expression can start, the tables read it whole before every token that binds less tightly |
| C57 | as C56, with derivations for CREATE INDEX, ALTER TABLE ADD and CREATE POLICY; C12 lifts this to files; the definitions of two layouts differ in the text of the statement only, which the comparison never reads of the current schema |
| C58 | the text of the dump is built from the rows of the server (`Model/Adapter.lean`); every piece of it is a layout of tokens, so that C57 applies to the whole; the definitions are in dump-normal form table by table (`Proofs/Blocks.lean`), so that C57's fixed point applies |
| C59 | the texts that the server keeps are layouts of CREATE TABLE statements (`Spec/StoredText.lean`); the dump joins them, so that C57 applies to the whole, and the definitions are in dump-normal form |
| C60 | definitions of tables only are compared table by table (`Proofs/TableSet.lean`, from the stateless form of the generator); the SQLite server is any state machine with the properties `LiteServer`; induction over the statements of the run keeps `LiteCatalogSays` (`Proofs/LiteRun.lean`) |
| C61 | the queries of the Postgres adapter as joins over a list of relations with attributes, constraints, indexes and policies (`Model/PgQuery.lean`); rows without `ORDER BY` come in any order (`Answers`); what belongs to a table is specified without the joins (`Spec/PgServer.lean`); the joins are shown to be local by filtering lemmas (`Proofs/PgQuery.lean`), the runs by C57, C58 and C62 |
| C62 | the dump-normal form does not depend on the order (`Proofs/Reorder.lean`), and the stateless form of the generator compares tables as sets; `Proofs/ReorderText.lean` carries this over to files; for statements of any kind the tokens alone are compared, by C66 (`Proofs/ReorderAny.lean`) |
| C63 | as C58 for the rows of SQL Server (`Spec/MsAdapter.lean`); `Ms.IsDump` holds of the text for every order of the map of indexes; every line of the dump is a layout (`Proofs/MsDump.lean`), the statements are separated (`Proofs/MsFile.lean`), the definitions are in dump-normal form (`Proofs/MsNormal.lean`) |
| C64 | `main` of the four commands from the parsed flags on (`Model/Command.lean`), with the file system, the environment and `NewDatabase` as parameters; case analysis |
| C65 | `postgresBuildDSN` and `url.QueryEscape` byte by byte; what an address says is a relation after RFC 3986 (`Spec/Url.lean`) that is proved to be a function; induction over the bytes; counterexamples |
| C66 | a relation between two runs of the parser whose tokenizers hand out the same tokens (`Proofs/YyAlike.lean`, `Proofs/AnyLayout.lean`); the generator commutes with every function on the texts of statements (`Proofs/Retext.lean`), so that numbers can be put in their place (`Proofs/RetextPairs.lean`); no part of the grammar is looked at |
| C67 | the language of queries (`Spec/Query.lean`); its derivations in the grammar, what they say and mean (`Proofs/QueryTree.lean`); the tables read them (`Proofs/SourceReads.lean`, `Proofs/QueryReads.lean`), also where the grammar asks for comments (`Proofs/ViewSim.lean`) |
| C68 | what the rows of the catalogs say about views (`Spec/ViewRows.lean`); what the adapters make of a text (`Proofs/ViewText.lean`); a whole dump with views, by C58, C59 and C67 (`Proofs/ViewDump.lean`) |
| C69 | the language of triggers and their statements (`Spec/Change.lean`), its trees and that the tables of the parser read them (`Proofs/ChangeTree.lean`, `Proofs/ChangeReads.lean`); what is done about triggers, by C39; rows of `show triggers` (`Spec/TriggerRows.lean`) and whole dumps (`Proofs/TriggerDump.lean`) |
| C70 | definitions of views and triggers as SQL Server stores them (`Spec/MsObjects.lean`), whole dumps by C63, C68 and C69 (`Proofs/MsObjectDump.lean`) |
| C71 | tables up to the order of their parts (`Spec/Rearranged.lean`); agreement as characterised by C48 does not depend on the order (`Proofs/Rearranged.lean`); `Proofs/RearrangedText.lean` carries this over to files by C57, `Proofs/RearrangedFile.lean` to files with views and triggers by C67 |
| C72 | the queries of the SQL Server adapter as joins over flat system tables whose rows refer to each other by numbers (`Model/MsQuery.lean`); all rows come in any order (`Answers`); what belongs to a table is specified by look-ups (`Spec/MsServer.lean`); the joins are evaluated along unique keys (`Proofs/MsQuery.lean`); two answers stand for tables with their items in another order, so C71 applies (`Proofs/MsServer.lean`) |
| C73 | the query for views as a join over the relations of C61 (`viewsQuery` in `Model/PgQuery.lean`), its rows in any order (`AnswersAll`); the views are specified without the join (`Spec/PgViews.lean`); the runs by C61, C67, C68 and C62 for any statements |
| C74 | two databases that list the same in another order (`Spec/AnyOrder.lean`); tables with all that belongs to them, views and triggers may come in any order, so that C62 for any statements applies (`Proofs/AnyOrder.lean`) |
| C75 | the output of `diff`, definition by definition and table by table (`diff_stateless`), only looks things up by name in the current schema; the clean-up goes through it in its order (`Spec/Listed.lean`, `Proofs/Listed.lean`); lifted to descriptions as text and to the adapters with C62, C73 and C74 (`Proofs/ListedText.lean`); columns in another order, and SQL Server with C72, in `Proofs/Moved.lean` and `Proofs/MovedText.lean` |
| C76 | `diff_stateless` gives the output as a concatenation over the definitions of the file; the clean-up uses the names of what is desired only, so it does not see the order; well-formedness of the reordered file follows from the names that separate statements introduce once (`Spec/FileOrder.lean`, `Proofs/FileOrder.lean`) |
| C77 | the queries as filters over the relations of all databases on the server (`Model/MyQuery.lean`); a server may answer in any order and, for `QueryRow`, with any of the rows; the answers are compared with the content of the database (`Spec/MyServer.lean`, `Proofs/MyServer.lean`) and C74, C75 do the rest |
| C78 | `mssqlBuildDSN` and the escaping of `net/url` byte by byte; what an address says is a relation after RFC 3986 and the encoding of forms (`Spec/MsUrl.lean`) that is proved to be a function; induction over the bytes; UTF-8 is injective |
| C79 | definitions of tables and views are compared one by one (`diff_mixed`, from the stateless form of the generator); the SQLite server is any state machine with the properties `LiteKeeps` (`Spec/LiteViews.lean`); induction over the statements of the run keeps `LiteHolds` (`Proofs/LiteViews.lean`); the second run is C74 |
| C80 | how a dialect calls a view is a small specification (`Spec/ViewPlaces.lean`); the files are read by C67 and the script is characterised by C38, so the proof is about the names only; the violations are proved for all views outside the default schema |
| C81 | as C79, with the statements that contain `DROP` taken out of the script (`Proofs/LiteSkip.lean`); induction over the statements of the run; the violations are proved for all such texts and views |
| C82 | the tables that a script drops, in order, are computed from the clean-up loop by induction over the tables of the database (`Proofs/Removals.lean`), and a DROP VIEW of an obsolete view is shown to come from the last loop only; the violations are proved for every server that refuses to drop a table in use (`Spec/Removals.lean`), by induction over the statements of the run |
| C83 | each statement of the script that brings something of the file is traced to the statement of the file it comes from and to those before it (`Proofs/Needs.lean`), by induction over the file; what statements need is an arbitrary function (`Spec/Needs.lean`) |
| C53 | `diff_stateless` with an empty side; the verbatim texts through C12 |

## 4. Properties that the code violates

For each of these the negation (a concrete input) is a theorem next to the partial theorem.

* C06 the result of `Commit` is discarded; C14 `;` inside a literal splits a statement; C15 names with dots collide;
  C17 `strings.TrimLeft` with a cut set mangles charsets; C18 MySQL CHECK columns, repeated index options and PRIMARY KEY without
  NOT NULL are changed forever; C19/C20/C47 several changes need a second run, never settle or fail (see the theorem names);
  C23 SQL Server drops a wanted column when its IDENTITY changes; C25/C41 SQLite never drops indexes or foreign keys;
  C28 one run misses a permuted column order; C31 double tables are accepted; C32 `USING BTREE` panics for MySQL and
  SQL Server, `NOT FOR REPLICATION` without IDENTITY and a `::` without operand panic, an obsolete table reported twice ends the
  process; C33/C34/C40 differences the comparisons miss;
  C37/C52 quotes in defaults and names are not escaped (a name can add a statement); C44 `DUAL` is lower-cased;
  C49 `/*!*/` panics the scanner; C50 Postgres names are printed with backquotes, characters beyond U+FFFF are truncated.
* C58 (limits, outside of its catalogs): see the theorems `C58_...` listed in the manifest's note.
* C59, C61, C63 (limits, outside of their databases): see the theorems `C59_...`, `C61_...`, `C63_...` listed in the manifest's notes.
* C65 spaces in Postgres passwords, question marks in names of databases and sockets do not reach the server.
* C67 (limits): the schema of a view is dropped, and the case of letters in a string of a query is ignored.
* C68 (limits): the Postgres adapter drops line ends and double spaces of a view, also in strings; names of views are written without quotes, so that some cannot be read again.
* C69 (limits): triggers are compared without spaces and letter case, also those in strings, and without the schema of the table; triggers that are not wanted stay.
* C70 (limits): line breaks are deleted from SQL Server views and nothing takes their place, so `AS<newline>SELECT` makes every run fail and `a<newline>FROM t` is another view, dropped and created by every run.
* C71 (limits): for tables with at most one primary key; with several, which SQL does not allow, the tool compares the first one it meets.
* C77 (limits): the query for the definition of a MySQL view does not mention the database, so the view of the same name in another database may be taken for it; then a needed change is missed or an unneeded one is made by every run.
* C78 (limits): hosts are names or numbers (letters, digits, `-._~:[]`); another host would be escaped by `net/url` and is not looked at. That the driver reads addresses by these rules is trusted.
* C79 (limits): names of views are in small letters, since the tool reads the name of a view in small letters but drops what SQLite lists; no table has the name of a view. That SQLite keeps the text of a statement of a table or view in `sqlite_master` and removes the rows of what is dropped is trusted (`LiteKeeps`); `exLiteKeeper` shows that such a server exists.
* C80 (violated): the schema of a view is lost when it is read, so for Postgres and SQL Server a view of another schema is dropped as `public.v` or `dbo.v` and taken for a view of the file in another schema.
* C81 (violated): what is skipped is recognised by the letters `DROP` anywhere in the text, so a wanted table with a column `DROPPED` is never created and no error is reported; a view whose query changes is created without being dropped, which SQLite and SQL Server refuse. Proved for files without these letters whose tables and views with a name in the database are as in the database.
* C82 (violated): obsolete tables are dropped in the order in which the database lists them and before all obsolete views, so Postgres refuses a script that drops a view with its table, and all servers with foreign keys refuse one that drops a referenced table before the referring one. Proved for databases that list the referring tables first.
* C72 (findings): no query of the SQL Server adapter has an `ORDER BY`, so the order of the columns of a key is up to the server (`C72_order_of_keys_is_not_asked_for`); foreign keys of several columns and columns with two checks are shown several times (`C72_rows_are_multiplied`); checks of whole tables are never shown (`C72_checks_of_tables_are_invisible`); a single encrypted view or trigger makes every run fail (`C72_encrypted_definitions_cannot_be_read`).
* C73 (finding): the views of Postgres are joined to their queries by name alone, so a view called like one of the system (such as `columns`) is listed with the queries of both: `C73_views_named_like_system_views_cannot_be_exported`, `C73_views_named_like_system_views_are_replaced`.
* Further findings without a property of their own: an AddPrimaryKey in the desired schema is always an error; one in the
  current schema marks only its first column; ADD COLUMN never carries AUTO_INCREMENT; MySQL prints only the first index option;
  a separate ALTER TABLE ADD FOREIGN KEY in the file never generates a statement; `NOW()` as default becomes `b'0'`;
  `5-3` is tokenized as `5`, `-3`.

## 5. Trusted base

Lean's kernel, the axioms `propext`, `Classical.choice`, `Quot.sound` (no others; `#print axioms` on every theorem of the
manifest lists a subset of these three), the reading of the Go code in `Verif/Model`, and the specifications in `Verif/Spec`.
No `sorry`, `native_decide`, `bv_decide`, own axiom, `implemented_by` or `unsafe` is used. `decide +kernel` evaluates a
decidable proposition in the kernel and adds no axiom.

## 6. Wrong programs

`seeded/LOG.jsonl` lists the edits of the model that were tried in a scratch copy. Failing proofs are replaced by `sorry` there
until everything builds; `theorems_failed` are the manifest theorems that then depend on `sorry`. A theorem that uses a refinement
lemma counts as failed when the lemma fails, so the list over-approximates; the theorem of the named claim is always in it.
An edit listed with an empty `theorems_failed` is followed by a later line for the same edit after the theorems were tightened.
