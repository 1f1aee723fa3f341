import Verif.Proofs.PgPolicy
import Verif.Proofs.LayoutCheck
/-
C58: a Postgres database is described to the tool as its catalog says.
-/
namespace Sqldef
open Spec Written Dumped

/-! ### The dump is understood -/

/-- **C58.** The dump of a table consists of the statements that the catalog stands for: the table with its columns and its
primary key, the indexes, the foreign keys and the policies, in this order and nothing else. -/
theorem C58_table_dump_is_what_the_catalog_says (cat : Pg.Catalog) (schema name : Str) (d : Described) (h : CatalogSays cat schema name d) :
    ∃ text, Pg.dumpTableDDL cat (schema ++ lit "." ++ name) = .ok text ∧ Contains .postgres text d.sentences := by
  obtain ⟨text, texts, h1, h2, h3⟩ := table_glued h
  exact ⟨text, h1, (contains_glued h2 h3).1⟩

/-- **C58.** The dump of a whole database is read without an error, as the definitions that the catalog stands for: one for
each statement, of the same kind and with the same content, table by table. -/
theorem C58_dump_is_understood (fmtFloat : Str → Str) {σ : Type} (db : Db σ) (cat : σ → Pg.Catalog) (s : σ) (ds : List Described)
    (h : List.Forall₂ (fun t d => CatalogSays (cat s) t.1 t.2 d) (cat s).tables ds) (hv : (cat s).views = []) :
    ∃ text defs, dumpDDLs (Pg.database db cat) s = .ok text ∧ parseDDLs (Sql.env fmtFloat) .postgres text = .ok defs ∧
      List.Forall₂ (fun x d => SaysTheSame .postgres d.statement (Sentence.meaning x) d ∧ x.Kind d) (ds.flatMap Described.sentences) defs := by
  obtain ⟨text, h1, h2, -, -⟩ := dump_contains db cat s h hv
  obtain ⟨defs, h3, h4, -⟩ := C57_file_is_understood fmtFloat .postgres text _ h2 (all_clear h)
  exact ⟨text, defs, h1, h3, h4⟩

/-- **C58.** Only what the catalog says matters: two databases whose catalogs stand for the same statements are changed in
the same way, whatever schema is desired. -/
theorem C58_only_what_the_catalog_says_matters (fmtFloat : Str → Str) {σ τ : Type} (db : Db σ) (db' : Db τ) (cat : σ → Pg.Catalog)
    (cat' : τ → Pg.Catalog) (s : σ) (s' : τ) (ds : List Described)
    (h : List.Forall₂ (fun t d => CatalogSays (cat s) t.1 t.2 d) (cat s).tables ds) (hv : (cat s).views = [])
    (h' : List.Forall₂ (fun t d => CatalogSays (cat' s') t.1 t.2 d) (cat' s').tables ds) (hv' : (cat' s').views = []) :
    ∃ text text', dumpDDLs (Pg.database db cat) s = .ok text ∧ dumpDDLs (Pg.database db' cat') s' = .ok text' ∧
      ∀ desired, generateIdempotentDDLs (Sql.env fmtFloat) .postgres desired text =
        generateIdempotentDDLs (Sql.env fmtFloat) .postgres desired text' := by
  obtain ⟨text, h1, h2, -, -⟩ := dump_contains db cat s h hv
  obtain ⟨text', h1', h2', -, -⟩ := dump_contains db' cat' s' h' hv'
  exact ⟨text, text', h1, h1', fun desired =>
    C57_layout_of_the_current_schema_is_irrelevant fmtFloat .postgres desired text text' _ h2 h2' (all_clear h)⟩

/-! ### Applying what was exported -/

/-- **C58.** A file with the statements that the catalog stands for, written in whatever layout, changes nothing: the run
ends without an error, executes nothing, and says that nothing is modified. -/
theorem C58_described_schema_changes_nothing (fmtFloat : Str → Str) {σ : Type} (db : Db σ) (cat : σ → Pg.Catalog) (s : σ)
    (ds : List Described) (hn : (cat s).tables.Nodup) (hv : (cat s).views = [])
    (h : List.Forall₂ (fun t d => CatalogSays (cat s) t.1 t.2 d ∧ Orderly (cat s) t.1 t.2 d) (cat s).tables ds)
    (fs : Files) (o : Options) (he : o.export_ = false) (file : Str) (hr : readFile fs o.sqlFile = .ok file)
    (hf : Contains .postgres file (ds.flatMap Described.sentences)) :
    run (Sql.env fmtFloat) .postgres (Pg.database db cat) fs o s =
      { events := [.readFile, .print (lit "-- Nothing is modified --\n")], err := none, state := s } := by
  have h' := forall₂_imp (fun _ _ hx => And.left hx) h
  obtain ⟨text, h1, h2, -, -⟩ := dump_contains db cat s h' hv
  obtain ⟨defs, h3, h4, -⟩ := C57_file_is_understood fmtFloat .postgres file _ hf (all_clear h')
  have hg := C57_rewriting_changes_nothing fmtFloat .postgres file text _ hf h2 (all_clear h') defs h3 (described_normal hn h h4)
  simp only [run, h1, he, hr, hg]
  rfl

/-- **C58.** Applying an export changes nothing: if the file is what `--export` has printed for the same database, then the
run ends without an error, executes nothing, and says that nothing is modified. -/
theorem C58_export_is_a_fixed_point (fmtFloat : Str → Str) {σ : Type} (db : Db σ) (cat : σ → Pg.Catalog) (s : σ)
    (ds : List Described) (hn : (cat s).tables.Nodup) (hv : (cat s).views = [])
    (h : List.Forall₂ (fun t d => CatalogSays (cat s) t.1 t.2 d ∧ Orderly (cat s) t.1 t.2 d) (cat s).tables ds)
    (fs fs' : Files) (o o' : Options) (ho : o.export_ = true) (ho' : o'.export_ = false) :
    ∃ text, run (Sql.env fmtFloat) .postgres (Pg.database db cat) fs o s = { events := [.print text], err := none, state := s } ∧
      (readFile fs' o'.sqlFile = .ok text →
        run (Sql.env fmtFloat) .postgres (Pg.database db cat) fs' o' s =
          { events := [.readFile, .print (lit "-- Nothing is modified --\n")], err := none, state := s }) := by
  have h' := forall₂_imp (fun _ _ hx => And.left hx) h
  obtain ⟨text, h1, -, h2, h5⟩ := dump_contains db cat s h' hv
  refine ⟨if text = [] then lit "-- No table exists --\n" else text ++ lit ";\n", by simp only [run, h1, ho]; rfl, fun hr => ?_⟩
  refine C58_described_schema_changes_nothing fmtFloat db cat s ds hn hv h fs' o' ho' _ hr ?_
  split
  · rename_i he
    rw [h5] at he
    rw [he] at h
    cases h
    unfold Contains
    rw [show statementTexts (lit "-- No table exists --\n") = [] by decide +kernel]
    exact .nil
  · exact h2

/-! ### A database -/

/-- The rows of a database with two tables: columns with defaults, checks, lengths, sequences and arrays, a primary key of
two columns, an index, a foreign key and a policy. -/
def exCatalog : Pg.Catalog where
  tables := [(lit "public", lit "users"), (lit "app", lit "posts")]
  columns := fun schema _ =>
    if schema = lit "public" then
      [{ name := lit "id", default := some (txt "nextval('users_id_seq'::regclass)"), isNullable := lit "NO",
         dataType := lit "bigint" },
       { name := lit "name", default := some (txt "'nobody'::character varying"), maxLength := some (lit "40"),
         dataType := txt "character varying", isUnique := true },
       { name := lit "age", isNullable := lit "NO", dataType := lit "integer", check := some (txt "CHECK ((age > 0))") }]
    else
      [{ name := lit "id", isNullable := lit "NO", dataType := lit "bigint", identity := some (lit "BY DEFAULT") },
       { name := lit "user id", isNullable := lit "NO", dataType := lit "bigint" },
       { name := lit "author", dataType := lit "bigint" },
       { name := lit "tags", dataType := lit "text[]" },
       { name := lit "at", default := some (lit "now()"), dataType := txt "timestamp without time zone" }]
  primaryKey := fun schema _ => if schema = lit "public" then [lit "id"] else [lit "id", lit "user id"]
  indexes := fun schema _ =>
    if schema = lit "public" then
      [(lit "users_pkey", txt "CREATE UNIQUE INDEX users_pkey ON public.users USING btree (id)"),
       (lit "by_age", txt "CREATE INDEX by_age ON public.users USING btree (age DESC, name) WHERE (age > 17)")]
    else [(lit "posts_pkey", txt "CREATE UNIQUE INDEX posts_pkey ON app.posts USING btree (id, \"user id\")")]
  foreignKeys := fun schema _ =>
    if schema = lit "public" then []
    else [{ tableSchema := lit "app", constraintName := txt "posts_author_fkey", tableName := lit "posts", columnName := lit "author",
            foreignTableSchema := lit "public", foreignTableName := lit "users", foreignColumnName := lit "id",
            foreignUpdateRule := lit "NO ACTION", foreignDeleteRule := lit "CASCADE" }]
  policies := fun schema _ =>
    if schema = lit "public" then
      [{ policyName := lit "adults", permissive := lit "PERMISSIVE", roles := lit "{alice,bob}", cmd := lit "SELECT",
         qual := some (lit "(age > 17)") }]
    else []
  views := []

/-- What the rows say. -/
def exDescribed : List Described :=
  [{ table :=
       { name := { schema := some (lit "public"), name := lit "users" }
         first := { name := lit "id", type := .integer "bigserial" none false false, options := [.notNull] }
         rest :=
           [.column { name := lit "name", type := .varying (some (lit "40")) .none .none,
                      options := [.unique, .default none .none (.string (lit "nobody") .varying)] },
            .column { name := lit "age", type := .integer "integer" none false false,
                      options := [.notNull, .check false (.tuple (.compare .gt (.column (lit "age")) (.integer (lit "0"))) []) false] },
            .index { head := .primary, first := { name := lit "id" } }] }
     indexes :=
       [{ name := lit "by_age", table := { schema := some (lit "public"), name := lit "users" },
          first := { name := lit "age", direction := some false }, rest := [{ name := lit "name" }],
          form := .methodLast (lit "btree") (some (.tuple (.compare .gt (.column (lit "age")) (.integer (lit "17"))) [])) .none }]
     foreignKeys := []
     policies :=
       [{ name := lit "adults", table := { name := lit "users" }, permissive := some true, scope := some "select", first := lit "alice",
          rest := [lit "bob"], condition := some (.tuple (.compare .gt (.column (lit "age")) (.integer (lit "17"))) []) }] },
   { table :=
       { name := { schema := some (lit "app"), name := lit "posts" }
         first := { name := lit "id", type := .integer "bigint" none false false, options := [.notNull, .generated false none] }
         rest :=
           [.column { name := lit "user id", type := .integer "bigint" none false false, options := [.notNull] },
            .column { name := lit "author", type := .integer "bigint" none false false },
            .column { name := lit "tags", type := .text "text" .none .none, array := .brackets },
            .column { name := lit "at", type := .zoned "timestamp" none none, options := [.default none .none .nowCall] },
            .index { head := .primary, first := { name := lit "id" }, rest := [{ name := lit "user id" }] }] }
     indexes := []
     foreignKeys :=
       [{ table := { schema := some (lit "app"), name := lit "posts" }, added :=
          .foreignKey { constraint := some (txt "posts_author_fkey"), first := lit "author",
                        table := { schema := some (lit "public"), name := lit "users" }, refFirst := lit "id",
                        actions := .updateDelete .noAction .cascade } }]
     policies := [] }]

theorem bareName_of_test {n : Str} (h : (wordTest n && decide (keywordCode (toLower n) = none ∧ toLower n ≠ lit "dual")) = true) :
    BareName n := by
  rw [Bool.and_eq_true] at h
  have h2 := of_decide_eq_true h.2
  exact ⟨word_of_test h.1, h2.1, h2.2⟩

theorem not_serial_of_test {d : Option Str} (h : Pg.nextvalDefault d = false) : ¬ IsSerial d := by
  rw [← nextvalDefault_iff, h]
  simp

theorem exCatalog_users : CatalogSays exCatalog (lit "public") (lit "users") exDescribed[0] ∧
    Orderly exCatalog (lit "public") (lit "users") exDescribed[0] := by
  have hage : GoodName (lit "age") := ⟨by decide, by decide, by decide⟩
  have h0 : GoodInt (lit "0") := ⟨lit "0", by decide, by decide, .inl rfl⟩
  have h17 : GoodInt (lit "17") := ⟨lit "17", by decide, by decide, .inl rfl⟩
  constructor
  · constructor
    · refine ⟨⟨bareName_of_test (by decide +kernel), bareName_of_test (by decide +kernel)⟩, rfl, ⟨_, .cons ?_ (.cons ?_ (.cons ?_ .nil)), rfl⟩,
        ?_, rfl, rfl⟩
      · exact ⟨rfl, ⟨by decide, by decide, by decide, by decide, by decide⟩,
          .serial (name := "bigint") (ty := .integer "bigserial" none false false) (by simp [serialTypes]) rfl ⟨_, rfl⟩ rfl, _, _, _, .serial _, .none, .none, rfl⟩
      · refine ⟨rfl, ⟨by decide, by decide, by decide, by decide, by decide⟩,
          .sized (name := "character varying") (ty := fun n => .varying (some n) .none .none) (n := 40) (by simp [Dumped.sizedTypes]) rfl
            (not_serial_of_test (by decide)) rfl (by decide) (by decide),
          _, _, _, .value (w := .none) (v := .string (lit "nobody") .varying) ⟨?_, by decide, by decide⟩
            (not_serial_of_test (by decide)), .none, .none, rfl⟩
        exact layout_of_test [("", "'nobody'"), ("", "::"), ("", "character"), (" ", "varying")] (by decide +kernel)
      · refine ⟨rfl, ⟨by decide, by decide, by decide, by decide, by decide⟩,
          .simple (name := "integer") (by simp [simpleTypes]) rfl (not_serial_of_test (by decide)) rfl, _, _, _, .none, .none,
          .check (e := .tuple (.compare .gt (.column (lit "age")) (.integer (lit "0"))) []) (noInherit := false) ⟨?_, by decide, by decide⟩
            (by simp [Ex.Proper, Ex.AllProper, Ex.level, hage, h0]) (by simp [Ex.depth, Ex.depths]), rfl⟩
        exact layout_of_test [("", "CHECK"), (" ", "("), ("", "("), ("", "age"), (" ", ">"), (" ", "0"), ("", ")"), ("", ")")]
          (by decide +kernel)
      · intro n hn
        cases List.mem_singleton.mp hn
        exact ⟨by decide, by decide, by decide, by decide, by decide⟩
    · unfold Untrimmed
      decide
    · rw [show ((exCatalog.indexes (lit "public") (lit "users")).filter fun row => ¬ IsKeyIndex row) =
        [(lit "by_age", txt "CREATE INDEX by_age ON public.users USING btree (age DESC, name) WHERE (age > 17)")] by decide +kernel]
      refine .cons ⟨⟨?_, by decide, by decide⟩, ?_, by decide, by decide +kernel, by decide⟩ .nil
      · exact layout_of_test [("", "CREATE"), (" ", "INDEX"), (" ", "by_age"), (" ", "ON"), (" ", "public"), ("", "."), ("", "users"),
          (" ", "USING"), (" ", "btree"), (" ", "("), ("", "age"), (" ", "DESC"), ("", ","), (" ", "name"), ("", ")"), (" ", "WHERE"),
          (" ", "("), ("", "age"), (" ", ">"), (" ", "17"), ("", ")")] (by decide +kernel)
      · simp [IndexForm.Clear, ClearCondition, Ex.Proper, Ex.AllProper, Ex.level, Ex.depth, Ex.depths, hage, h17, IndexOpts.all]
    · exact .nil
    · refine .cons ⟨⟨bareName_of_test (by decide +kernel), bareName_of_test (by decide +kernel)⟩, rfl, rfl, .inl ⟨rfl, rfl⟩,
        ⟨"SELECT", "select", by simp [policyScopes], rfl, rfl⟩, ⟨rfl, ?_⟩,
        .some ⟨?_, by decide, by decide⟩ (by decide +kernel) (by simp [Ex.Proper, Ex.AllProper, Ex.level, hage, h17])
          (by simp [Ex.depth, Ex.depths]), .none⟩ .nil
      · intro n hn
        simp only [List.mem_cons, List.not_mem_nil, or_false] at hn
        rcases hn with rfl | rfl <;> exact bareName_of_test (by decide +kernel)
      · exact layout_of_test [("", "("), ("", "age"), (" ", ">"), (" ", "17"), ("", ")")] (by decide +kernel)
  · refine ⟨by decide, ?_, by decide, ?_, by decide, by decide, fun _ => rfl, by decide⟩
    · intro i hi
      cases List.mem_singleton.mp hi
      rfl
    · intro i hi
      cases List.mem_singleton.mp hi
      exact List.nodup_nil

theorem exCatalog_posts : CatalogSays exCatalog (lit "app") (lit "posts") exDescribed[1] ∧
    Orderly exCatalog (lit "app") (lit "posts") exDescribed[1] := by
  constructor
  · constructor
    · refine ⟨⟨bareName_of_test (by decide +kernel), bareName_of_test (by decide +kernel)⟩, rfl,
        ⟨_, .cons ?_ (.cons ?_ (.cons ?_ (.cons ?_ (.cons ?_ .nil)))), rfl⟩, ?_, rfl, rfl⟩
      · exact ⟨rfl, ⟨by decide, by decide, by decide, by decide, by decide⟩,
          .simple (name := "bigint") (ty := .integer "bigint" none false false) (by simp [simpleTypes]) rfl (not_serial_of_test (by decide)) rfl, _, _, _, .none, .byDefault, .none, rfl⟩
      · exact ⟨rfl, ⟨by decide, by decide, by decide, by decide, by decide⟩,
          .simple (name := "bigint") (ty := .integer "bigint" none false false) (by simp [simpleTypes]) rfl (not_serial_of_test (by decide)) rfl, _, _, _, .none, .none, .none, rfl⟩
      · exact ⟨rfl, ⟨by decide, by decide, by decide, by decide, by decide⟩,
          .simple (name := "bigint") (ty := .integer "bigint" none false false) (by simp [simpleTypes]) rfl (not_serial_of_test (by decide)) rfl, _, _, _, .none, .none, .none, rfl⟩
      · exact ⟨rfl, ⟨by decide, by decide, by decide, by decide, by decide⟩,
          .array (name := "text") (by simp [elementTypes]) rfl (not_serial_of_test (by decide)) rfl, _, _, _, .none, .none, .none, rfl⟩
      · refine ⟨rfl, ⟨by decide, by decide, by decide, by decide, by decide⟩,
          .simple (name := "timestamp without time zone") (by simp [simpleTypes]) rfl (not_serial_of_test (by decide)) rfl,
          _, _, _, .value (w := .none) (v := .nowCall) ⟨?_, by decide, by decide⟩ (not_serial_of_test (by decide)), .none, .none, rfl⟩
        exact layout_of_test [("", "now"), ("", "("), ("", ")")] (by decide +kernel)
      · intro n hn
        rw [show exCatalog.primaryKey (lit "app") (lit "posts") = [lit "id", lit "user id"] by decide +kernel] at hn
        have : n = lit "id" ∨ n = lit "user id" := by simpa using hn
        rcases this with rfl | rfl <;> exact ⟨by decide, by decide, by decide, by decide, by decide⟩
    · unfold Untrimmed
      decide
    · rw [show ((exCatalog.indexes (lit "app") (lit "posts")).filter fun row => ¬ IsKeyIndex row) = [] by decide +kernel]
      exact .nil
    · refine .cons ⟨⟨?_, ?_, ?_, ?_, ?_, ?_, ?_⟩, "NO ACTION", .noAction, "CASCADE", .cascade, by simp [refActions], by simp [refActions],
        rfl, rfl, rfl⟩ .nil <;> exact bareName_of_test (by decide +kernel)
    · exact .nil
  · exact ⟨by decide, fun _ hi => (List.not_mem_nil hi).elim, by decide, fun _ hi => (List.not_mem_nil hi).elim, by decide, by decide,
      fun h => absurd rfl h, by decide⟩

theorem exCatalog_says : List.Forall₂ (fun t d => CatalogSays exCatalog t.1 t.2 d ∧ Orderly exCatalog t.1 t.2 d) exCatalog.tables exDescribed :=
  .cons exCatalog_users (.cons exCatalog_posts .nil)


/-- A database on which every statement succeeds; what it contains is given by the catalog. -/
def exServer : Db Unit where
  tableNames _ := .ok []
  dumpTableDDL _ _ := .ok []
  views _ := .ok []
  triggers _ := .ok []
  begin s := (none, s)
  exec _ s := (none, s)
  rollback s := (none, s)
  commit s := (none, s)

/-- The export of the database above. -/
def exExport : Str := txt "CREATE TABLE public.users (
    \"id\" bigserial NOT NULL,
    \"name\" character varying(40) UNIQUE DEFAULT 'nobody'::character varying,
    \"age\" integer NOT NULL CHECK ((age > 0)),
    PRIMARY KEY (\"id\")
);
CREATE INDEX by_age ON public.users USING btree (age DESC, name) WHERE (age > 17);
CREATE POLICY adults ON users AS PERMISSIVE FOR SELECT TO alice,bob USING (age > 17);

CREATE TABLE app.posts (
    \"id\" bigint NOT NULL GENERATED BY DEFAULT AS IDENTITY,
    \"user id\" bigint NOT NULL,
    \"author\" bigint,
    \"tags\" text[],
    \"at\" timestamp DEFAULT now(),
    PRIMARY KEY (\"id\", \"user id\")
);
ALTER TABLE ONLY app.posts ADD CONSTRAINT posts_author_fkey FOREIGN KEY (author) REFERENCES public.users(id) ON UPDATE NO ACTION ON DELETE CASCADE;
"

theorem dumped_of_check {x : Except Str Str} {y : Str} (h : x.toOption = some y) : x = .ok y := by
  cases x with
  | error e => cases h
  | ok z => cases h; rfl

theorem exExport_printed : ∀ text text' : Str, dumpDDLs (Pg.database exServer fun _ => exCatalog) () = .ok text → text ≠ [] →
    text ++ lit ";\n" = text' → ∀ fs o, o.export_ = true → run (Sql.env id) .postgres (Pg.database exServer fun _ => exCatalog) fs o () =
      { events := [.print text'], err := none, state := () } := by
  intro text text' h1 h2 h3 fs o ho
  simp only [run, h1, ho, if_neg h2, h3, ↓reduceIte]

theorem exExport_dumped : dumpDDLs (Pg.database exServer fun _ => exCatalog) () = .ok (exExport.take (exExport.length - 2)) :=
  dumped_of_check (by decide +kernel)

theorem exExport_parts : exExport.take (exExport.length - 2) ≠ [] ∧
    exExport.take (exExport.length - 2) ++ lit ";\n" = exExport := by decide +kernel

/-- Exporting the database above, and applying the export: nothing is modified. -/
example (fs fs' : Files) (o o' : Options) (ho : o.export_ = true) (ho' : o'.export_ = false)
    (hr : readFile fs' o'.sqlFile = .ok exExport) :
    run (Sql.env id) .postgres (Pg.database exServer fun _ => exCatalog) fs o () = { events := [.print exExport], err := none, state := () } ∧
    run (Sql.env id) .postgres (Pg.database exServer fun _ => exCatalog) fs' o' () =
      { events := [.readFile, .print (lit "-- Nothing is modified --\n")], err := none, state := () } := by
  have h3 := exExport_printed _ _ exExport_dumped exExport_parts.1 exExport_parts.2 fs o ho
  obtain ⟨text, h1, h2⟩ := C58_export_is_a_fixed_point id exServer (fun _ => exCatalog) () exDescribed (by decide) rfl exCatalog_says
    fs fs' o o' ho ho'
  have : text = exExport := by
    rw [h1] at h3
    injection h3 with h3
    injection h3 with h3
    injection h3
  exact ⟨h3, h2 (this ▸ hr)⟩

/-! ### What is not covered -/

/-- **C58, a limit.** Whether an index belongs to the primary key is decided by its name: of two databases that differ only
in indexes whose names end in `_pkey` the dumps are the same, although only one index of a table can be that of its primary
key (/repo/adapter/postgres/postgres.go:289-292). -/
theorem C58_indexes_named_like_keys_are_invisible (cat : Pg.Catalog) (indexes : Str → Str → List (Str × Str))
    (hu : ∀ s t, ∀ row ∈ cat.indexes s t ++ indexes s t, Untrimmed row.1)
    (h : ∀ s t, ((cat.indexes s t).filter fun row => ¬ IsKeyIndex row) = (indexes s t).filter fun row => ¬ IsKeyIndex row) (table : Str) :
    Pg.dumpTableDDL { cat with indexes := indexes } table = Pg.dumpTableDDL cat table := by
  unfold Pg.dumpTableDDL
  obtain ⟨s, t⟩ := splitTableName (lit "public") table
  have e1 := getIndexDefs_eq fun row hr => hu s t row (List.mem_append_left _ hr)
  have e2 := getIndexDefs_eq fun row hr => hu s t row (List.mem_append_right _ hr)
  simp only [e1, e2, h]

/-- **C58, a limit.** A policy of a table outside the schema `public` is attributed to the table of the same name in `public`
(/repo/adapter/postgres/postgres.go:390: the name of the table is written without the schema). If there is none, no schema at
all can be applied: every run ends with an error. -/
theorem C58_policies_outside_public_fail (fmtFloat : Str → Str) {σ : Type} (db : Db σ) (cat : σ → Pg.Catalog) (s : σ)
    (ds : List Described) (h : List.Forall₂ (fun t d => CatalogSays (cat s) t.1 t.2 d) (cat s).tables ds) (hv : (cat s).views = [])
    (schema name : Str) (ht : (schema, name) ∈ (cat s).tables) (hp : (cat s).policies schema name ≠ [])
    (hn : (lit "public", name) ∉ (cat s).tables) :
    ∃ text, dumpDDLs (Pg.database db cat) s = .ok text ∧
      ∀ desired, ∃ e, generateIdempotentDDLs (Sql.env fmtFloat) .postgres desired text = .error e := by
  obtain ⟨text, h1, h2, -, -⟩ := dump_contains db cat s h hv
  obtain ⟨defs, h3, h4, -⟩ := C57_file_is_understood fmtFloat .postgres text _ h2 (all_clear h)
  refine ⟨text, h1, fun desired => ?_⟩
  cases hd : parseDDLs (Sql.env fmtFloat) .postgres desired with
  | error e => exact ⟨e, by simp only [generateIdempotentDDLs, hd]; rfl⟩
  | ok desiredDefs =>
    cases hc : convertDDLsToTables defs with
    | error e =>
      have : diff .postgres desiredDefs defs = .error e := by unfold diff; rw [hc]; rfl
      exact ⟨e, by unfold generateIdempotentDDLs; rw [hd, h3]; simp only [Except.bind, bind, this]⟩
    | ok ts =>
      obtain ⟨x, p, hm⟩ := described_policy h h4 ht hp
      have := convertFrom_policies hc x _ p hm
      rw [described_created h h4] at this
      simp only [List.map_nil, List.nil_append, List.mem_map] at this
      obtain ⟨t, htm, e⟩ := this
      obtain ⟨d, -, hcs⟩ := forall₂_mem h htm
      obtain ⟨e1, e2⟩ := dotted_inj (bare_nodot hcs.table.bare.1) (by decide) e
      have : t = (lit "public", name) := by rw [← e1, ← e2]
      rw [this] at htm
      exact absurd htm hn

/-- A database with a policy outside `public`. -/
def exOtherSchema : Pg.Catalog :=
  { exCatalog with
    tables := [(lit "app", lit "posts")]
    policies := fun _ _ => [{ policyName := lit "mine", permissive := lit "PERMISSIVE", roles := lit "{public}", cmd := lit "ALL" }] }

example : ∃ text, dumpDDLs (Pg.database exServer fun _ => exOtherSchema) () = .ok text ∧
    ∀ desired, ∃ e, generateIdempotentDDLs (Sql.env id) .postgres desired text = .error e := by
  refine C58_policies_outside_public_fail id exServer (fun _ => exOtherSchema) ()
    [{ exDescribed[1] with
       policies := [{ name := lit "mine", table := { name := lit "posts" }, permissive := some true, scope := some "all",
                      first := lit "public" }] }]
    (.cons ?_ .nil) rfl (lit "app") (lit "posts") (by decide) (by decide) (by decide)
  obtain ⟨h, -⟩ := exCatalog_posts
  refine ⟨h.table, h.untrimmed, h.indexes, h.foreignKeys, .cons ⟨⟨bareName_of_test (by decide +kernel), bareName_of_test (by decide +kernel)⟩,
    rfl, rfl, .inl ⟨rfl, rfl⟩, ⟨"ALL", "all", by simp [policyScopes], rfl, rfl⟩, ⟨rfl, ?_⟩, .none, .none⟩ .nil⟩
  intro n hn
  cases List.mem_singleton.mp hn
  exact bareName_of_test (by decide +kernel)

/-- A database with one table. -/
def oneTable (columns : List Pg.Row) (foreignKeys : List Pg.FkRow) : Pg.Catalog where
  tables := [(lit "public", lit "t")]
  columns _ _ := columns
  primaryKey _ _ := []
  indexes _ _ := []
  foreignKeys _ _ := foreignKeys
  policies _ _ := []
  views := []

/-- Columns that the tool dumps and cannot read: types and defaults that its grammar does not have, and a semicolon within a
string. -/
def unreadableColumns : List Pg.Row :=
  [{ name := lit "a", dataType := lit "bytea" }, { name := lit "a", dataType := lit "interval" }, { name := lit "a", dataType := lit "inet" },
   { name := lit "a", dataType := lit "uuid", default := some (txt "gen_random_uuid()") },
   { name := lit "a", dataType := lit "integer", default := some (txt "'-1'::integer") },
   { name := lit "a", dataType := lit "jsonb", default := some (lit "'{}'::jsonb") },
   { name := lit "a", dataType := lit "integer", default := some (lit "(1 + 2)") },
   { name := lit "a", dataType := lit "text", default := some (lit "'x;y'::text") },
   { name := lit "a", dataType := lit "text", check := some (txt "CHECK (a = ANY (ARRAY['x'::text, 'y'::text]))") }]

/-- **C58, a limit.** For the columns above, and for a table without columns, the dump cannot be read: whatever schema is
desired, the run ends with an error, even if the desired schema leaves the table alone. -/
theorem C58_some_tables_cannot_be_read : ∀ columns, columns = [] ∨ (∃ r ∈ unreadableColumns, columns = [r]) →
    ∃ text, dumpDDLs (Pg.database exServer fun _ => oneTable columns []) () = .ok text ∧
      ∀ desired, ∃ e, generateIdempotentDDLs (Sql.env id) .postgres desired text = .error e := by
  have key : ∀ text, (parseDDLs (Sql.env id) .postgres text).toOption = none →
      ∀ desired, ∃ e, generateIdempotentDDLs (Sql.env id) .postgres desired text = .error e := by
    intro text h desired
    cases hd : parseDDLs (Sql.env id) .postgres desired with
    | error e => exact ⟨e, by unfold generateIdempotentDDLs; rw [hd]; rfl⟩
    | ok ds =>
      cases hc : parseDDLs (Sql.env id) .postgres text with
      | ok cs => rw [hc] at h; cases h
      | error e => exact ⟨e, by unfold generateIdempotentDDLs; rw [hd, hc]; rfl⟩
  have all : ∀ columns ∈ [] :: unreadableColumns.map fun r => [r],
      ((dumpDDLs (Pg.database exServer fun _ => oneTable columns []) ()).toOption.any fun text =>
        (parseDDLs (Sql.env id) .postgres text).toOption.isNone) = true := by decide +kernel
  intro columns hc
  have hm : columns ∈ [] :: unreadableColumns.map fun r => [r] := by
    rcases hc with rfl | ⟨r, hr, rfl⟩
    · simp
    · exact List.mem_cons_of_mem _ (List.mem_map.mpr ⟨r, hr, rfl⟩)
  have := all columns hm
  cases hd : dumpDDLs (Pg.database exServer fun _ => oneTable columns []) () with
  | error e => rw [hd] at this; simp [Except.toOption] at this
  | ok text =>
    rw [hd] at this
    exact ⟨text, rfl, key text (by simpa [Except.toOption] using this)⟩

/-- The rows that the server returns for `FOREIGN KEY (a, b) REFERENCES u (x, y)`: one for every pair of columns
(/repo/adapter/postgres/postgres.go:333-339 joins on the name of the constraint only). -/
def compositeKey : List Pg.FkRow :=
  [(lit "a", lit "x"), (lit "a", lit "y"), (lit "b", lit "x"), (lit "b", lit "y")].map fun c =>
    { tableSchema := lit "public", constraintName := lit "fk", tableName := lit "t", columnName := c.1, foreignTableSchema := lit "public",
      foreignTableName := lit "u", foreignColumnName := c.2, foreignUpdateRule := lit "NO ACTION", foreignDeleteRule := lit "NO ACTION" }

def compositeCatalog : Pg.Catalog :=
  oneTable [{ name := lit "a", dataType := lit "bigint" }, { name := lit "b", dataType := lit "bigint" }] compositeKey

/-- **C58, a limit.** A foreign key of two columns is dumped as four foreign keys of one column and of the same name: the
export of such a database cannot be applied to it. -/
theorem C58_composite_foreign_key_export_fails : ∃ text, dumpDDLs (Pg.database exServer fun _ => compositeCatalog) () = .ok text ∧
    ∃ e, generateIdempotentDDLs (Sql.env id) .postgres text text = .error e := by
  have h : ((dumpDDLs (Pg.database exServer fun _ => compositeCatalog) ()).toOption.any fun text =>
      (generateIdempotentDDLs (Sql.env id) .postgres text text).toOption.isNone) = true := by decide +kernel
  cases hd : dumpDDLs (Pg.database exServer fun _ => compositeCatalog) () with
  | error e => rw [hd] at h; simp [Except.toOption] at h
  | ok text =>
    rw [hd] at h
    refine ⟨text, rfl, ?_⟩
    cases hg : generateIdempotentDDLs (Sql.env id) .postgres text text with
    | error e => exact ⟨e, rfl⟩
    | ok l =>
      have h : (generateIdempotentDDLs (Sql.env id) .postgres text text).toOption.isNone = true := by simpa [Except.toOption] using h
      rw [hg] at h
      cases h

/-- **C58, a limit.** The precision of a number is not part of what the server is asked for: every precision that is desired
is taken to be there already. -/
theorem C58_precision_of_numbers_is_not_seen :
    ∀ desired ∈ [txt "CREATE TABLE t (a numeric(10,2))", txt "CREATE TABLE t (a numeric(30,0))", txt "CREATE TABLE t (a numeric)"],
      ∃ text, dumpDDLs (Pg.database exServer fun _ => oneTable [{ name := lit "a", dataType := lit "numeric" }] []) () = .ok text ∧
        generateIdempotentDDLs (Sql.env id) .postgres desired text = .ok [] := by
  intro desired hd
  refine ⟨txt "CREATE TABLE public.t (\n    \"a\" numeric\n)", dumped_of_check (by decide +kernel), ?_⟩
  simp only [List.mem_cons, List.not_mem_nil, or_false] at hd
  rcases hd with rfl | rfl | rfl <;> exact ok_of_check (by decide +kernel)

end Sqldef
