import Verif.Proofs.PgServer
import Verif.Props.Adapter
/-
C61: what the tool gets to know about a table of a Postgres server is what the server knows about that table, whatever else
is in the database and in whatever order the server returns the rows.
-/
namespace Sqldef
open Spec Written Dumped Spec.PgServer Pg

/-! ### What the server answers -/

/-- **C61.** The server can answer. -/
theorem C61_server_answers (db : List Relation) (views : List (Str × Str × Str)) : ∃ cat, Answers db cat ∧ cat.views = views :=
  ⟨_, answers_someAnswer db views, rfl⟩

/-- **C61.** Exactly the tables outside the schemas of the system are listed, each once. -/
theorem C61_tables_are_listed (db : List Relation) (cat : Pg.Catalog) (hs : Sound db) (h : Answers db cat) :
    cat.tables.Nodup ∧ ∀ t : Str × Str, t ∈ cat.tables ↔ ∃ r ∈ db, Shown r ∧ (r.schema, r.name) = t :=
  answers_tables h hs

/-- **C61.** A table is described by itself: the answer has exactly its columns, in their order and without those that were
dropped, the columns of its primary key in the order of the key, and its foreign keys, indexes and policies. Nothing is taken
from other tables, and nothing appears twice. -/
theorem C61_table_is_described_by_itself (db : List Relation) (cat : Pg.Catalog) (hs : Sound db) (h : Answers db cat) (r : Relation)
    (hr : r ∈ db) (hk : r.kind = 'r') (ha : Apart db r) (hp : Simple r) :
    cat.columns r.schema r.name = (live r).map (ownRow r) ∧ cat.primaryKey r.schema r.name = ownKey r ∧
      (cat.foreignKeys r.schema r.name).Perm (ownForeignKeys r) ∧ (cat.indexes r.schema r.name).Perm r.indexes ∧
      (cat.policies r.schema r.name).Perm r.policies :=
  ⟨answers_columns h hs hr hk ha hp, answers_primaryKey h hs hr ha, answers_foreignKeys h hs hr ha hp, answers_indexes h hs hr⟩

/-- **C61.** The rest of the database does not matter: a table that is the same in two databases is described in the same
way, but for the order of foreign keys, indexes and policies. -/
theorem C61_other_tables_do_not_matter (db db' : List Relation) (cat cat' : Pg.Catalog) (hs : Sound db) (hs' : Sound db')
    (h : Answers db cat) (h' : Answers db' cat') (r : Relation) (hr : r ∈ db) (hr' : r ∈ db') (hk : r.kind = 'r')
    (ha : Apart db r) (ha' : Apart db' r) (hp : Simple r) :
    cat.columns r.schema r.name = cat'.columns r.schema r.name ∧ cat.primaryKey r.schema r.name = cat'.primaryKey r.schema r.name ∧
      (cat.foreignKeys r.schema r.name).Perm (cat'.foreignKeys r.schema r.name) ∧
      (cat.indexes r.schema r.name).Perm (cat'.indexes r.schema r.name) ∧
      (cat.policies r.schema r.name).Perm (cat'.policies r.schema r.name) := by
  obtain ⟨a1, a2, a3, a4, a5⟩ := C61_table_is_described_by_itself db cat hs h r hr hk ha hp
  obtain ⟨b1, b2, b3, b4, b5⟩ := C61_table_is_described_by_itself db' cat' hs' h' r hr' hk ha' hp
  exact ⟨a1.trans b1.symm, a2.trans b2.symm, a3.trans b3.symm, a4.trans b4.symm, a5.trans b5.symm⟩

/-! ### Runs -/

/-- **C61.** A file with the statements that the tables stand for, in any order in which every statement comes after the
table it is about, changes nothing, whatever the order of the rows that the server returns. -/
theorem C61_described_server_is_left_alone (fmtFloat : Str → Str) {σ : Type} (db : Db σ) (server : σ → List Relation)
    (cat : σ → Pg.Catalog) (s : σ) (hs : Sound (server s)) (ha : Answers (server s) (cat s)) (hv : (cat s).views = [])
    (own : Str × Str → Described) (hd : ServerSays (server s) own) (o : Options) (fs : Files) (he : o.export_ = false) (file : Str)
    (hr : readFile fs o.sqlFile = .ok file) (ss : List Sentence)
    (hp : ss.Perm ((ownTables (server s)).flatMap fun t => (own t).sentences)) (hf : Contains .postgres file ss) (defs : List DDL)
    (hdefs : parseDDLs (Sql.env fmtFloat) .postgres file = .ok defs) (hw : WellFormedCurrent defs) :
    run (Sql.env fmtFloat) .postgres (Pg.database db cat) fs o s =
      { events := [.readFile, .print (lit "-- Nothing is modified --\n")], err := none, state := s } :=
  server_same fmtFloat db server cat s hs ha hv hd he hr (tablesQuery_own _ ▸ hp) hf hdefs hw

/-- **C61.** What was exported can be applied: if the file is what `--export` has printed for a database, then a run against
a database with the same tables changes nothing, even if the server now returns the rows in another order. -/
theorem C61_export_is_a_fixed_point_in_any_order (fmtFloat : Str → Str) {σ τ : Type} (db : Db σ) (db' : Db τ) (server : List Relation)
    (cat : σ → Pg.Catalog) (cat' : τ → Pg.Catalog) (s : σ) (s' : τ) (hs : Sound server) (ha : Answers server (cat s))
    (ha' : Answers server (cat' s')) (hv : (cat s).views = []) (hv' : (cat' s').views = [])
    (own : Str × Str → Described) (hd : ServerSays server own) (fs fs' : Files) (o o' : Options) (ho : o.export_ = true)
    (ho' : o'.export_ = false) :
    ∃ text, run (Sql.env fmtFloat) .postgres (Pg.database db cat) fs o s = { events := [.print text], err := none, state := s } ∧
      (readFile fs' o'.sqlFile = .ok text →
        run (Sql.env fmtFloat) .postgres (Pg.database db' cat') fs' o' s' =
          { events := [.readFile, .print (lit "-- Nothing is modified --\n")], err := none, state := s' }) := by
  obtain ⟨ds, h1, h2⟩ := described_tables ha hs hd
  have h1' := forall₂_imp (fun _ _ hx => And.left hx) h1
  obtain ⟨text, t1, t2, t3, t4⟩ := dump_contains db cat s h1' hv
  refine ⟨if text = [] then lit "-- No table exists --\n" else text ++ lit ";\n", by simp only [run, t1, ho]; rfl, fun hr => ?_⟩
  have hf : Contains .postgres (if text = [] then lit "-- No table exists --\n" else text ++ lit ";\n") (ds.flatMap Described.sentences) := by
    split
    · rename_i he
      rw [t4] at he
      rw [he] at h1
      cases h1
      unfold Contains
      rw [show statementTexts (lit "-- No table exists --\n") = [] by decide +kernel]
      exact .nil
    · exact t3
  obtain ⟨defs, d1, d2, -⟩ := C57_file_is_understood fmtFloat .postgres _ _ hf (all_clear h1')
  have hn := described_normal (answers_tables ha hs).1 h1 d2
  exact server_same fmtFloat db' (fun _ => server) cat' s' hs ha' hv' hd ho' hr ((same_sentences h2).trans (ha.tables.flatMap_right _)) hf d1
    (wellFormedCurrent_of_wellFormed hn.wellFormed hn.noAddIndex)

/-! ### A server -/

/-- A table with a column that was dropped. -/
def exUsersRelation : Relation where
  schema := lit "public"
  name := lit "users"
  attributes :=
    [{ num := 1, name := lit "id", dataType := lit "bigint", formatted := lit "bigint", default := some (txt "nextval('users_id_seq'::regclass)"),
       isNullable := lit "NO" },
     { num := 2, name := txt "........pg.dropped.2........", dropped := true, dataType := [], formatted := lit "-" },
     { num := 3, name := lit "name", dataType := txt "character varying", formatted := txt "character varying(40)",
       default := some (txt "'nobody'::character varying"), maxLength := some (lit "40") },
     { num := 4, name := lit "age", dataType := lit "integer", formatted := lit "integer", isNullable := lit "NO" }]
  constraints :=
    [{ name := lit "users_pkey", kind := .primary, key := [1] }, { name := txt "users_name_key", kind := .unique, key := [3] },
     { name := txt "users_age_check", kind := .check, key := [4], definition := txt "CHECK ((age > 0))" }]
  indexes :=
    [(lit "users_pkey", txt "CREATE UNIQUE INDEX users_pkey ON public.users USING btree (id)"),
     (txt "users_name_key", txt "CREATE UNIQUE INDEX users_name_key ON public.users USING btree (name)"),
     (lit "by_age", txt "CREATE INDEX by_age ON public.users USING btree (age DESC, name) WHERE (age > 17)")]
  policies :=
    [{ policyName := lit "adults", permissive := lit "PERMISSIVE", roles := lit "{alice,bob}", cmd := lit "SELECT",
       qual := some (lit "(age > 17)") }]

/-- A table with a foreign key and a primary key of two columns. -/
def exPostsRelation : Relation where
  schema := lit "app"
  name := lit "posts"
  attributes :=
    [{ num := 1, name := lit "id", dataType := lit "bigint", formatted := lit "bigint", isNullable := lit "NO",
       identity := some (lit "BY DEFAULT") },
     { num := 2, name := lit "user id", dataType := lit "bigint", formatted := lit "bigint", isNullable := lit "NO" },
     { num := 3, name := lit "author", dataType := lit "bigint", formatted := lit "bigint" },
     { num := 4, name := lit "tags", dataType := lit "ARRAY", formatted := lit "text[]" },
     { num := 5, name := lit "at", dataType := txt "timestamp without time zone", formatted := txt "timestamp without time zone",
       default := some (lit "now()") }]
  constraints :=
    [{ name := txt "posts_author_fkey", kind := .foreign, key := [3], refSchema := lit "public", refTable := lit "users",
       refColumns := [lit "id"], updateRule := lit "NO ACTION", deleteRule := lit "CASCADE" },
     { name := lit "posts_pkey", kind := .primary, key := [1, 2] }]
  indexes := [(lit "posts_pkey", txt "CREATE UNIQUE INDEX posts_pkey ON app.posts USING btree (id, \"user id\")")]

/-- A view with the name of one of the tables, and a table of the system. -/
def exOthers : List Relation :=
  [{ schema := lit "reports", name := lit "users", kind := 'v',
     attributes := [{ num := 1, name := lit "total", dataType := lit "bigint", formatted := lit "bigint" }] },
   { schema := lit "pg_catalog", name := lit "pg_class",
     attributes := [{ num := 1, name := lit "oid", dataType := lit "oid", formatted := lit "oid", isNullable := lit "NO" }],
     constraints := [{ name := txt "pg_class_oid_index", kind := .primary, key := [1] }] }]

/-- The relations of the server. -/
def exRelations : List Relation := exUsersRelation :: exPostsRelation :: exOthers

theorem exRelations_sound : Sound exRelations := by
  constructor
  · decide +kernel
  · decide +kernel
  · decide +kernel
  · decide +kernel
  · decide +kernel
  · decide +kernel

theorem exRelations_apart (r : Relation) (hr : r ∈ exRelations) : Apart exRelations r := by
  revert r
  have h1 : ∀ r ∈ exRelations, ∀ c ∈ exRelations, c.name = r.name → c.schema ≠ r.schema → ∀ a ∈ live r, ∀ b ∈ live c, b.name ≠ a.name := by
    decide +kernel
  have h2 : ∀ r ∈ exRelations, ∀ c ∈ exRelations, (c.schema, c.name) ≠ (r.schema, r.name) → ∀ k ∈ r.constraints,
      k.kind = .primary ∨ k.kind = .foreign → ∀ l ∈ c.constraints, l.name ≠ k.name := by decide +kernel
  exact fun r hr => ⟨h1 r hr, h2 r hr⟩

theorem exRelations_simple (r : Relation) (hr : r ∈ exRelations) : Simple r := by
  have h1 : ∀ r ∈ exRelations, ∀ k ∈ r.constraints, k.kind ≠ .primary → k.key.length = 1 := by decide +kernel
  have h2 : ∀ r ∈ exRelations, r.constraints.Pairwise fun k l => k.kind = l.kind → k.kind = .unique ∨ k.kind = .check → k.key ≠ l.key := by
    decide +kernel
  have h3 : ∀ r ∈ exRelations, ∀ k ∈ r.constraints, k.kind = .foreign → k.refColumns.length = 1 := by decide +kernel
  exact ⟨fun k hk hn => List.length_eq_one_iff.mp (h1 r hr k hk hn), h2 r hr, fun k hk hn => List.length_eq_one_iff.mp (h3 r hr k hk hn)⟩

/-- The index of the unique constraint. -/
def exNameKey : NewIndex :=
  { unique := true, name := txt "users_name_key", table := { schema := some (lit "public"), name := lit "users" }, first := { name := lit "name" },
    form := .methodLast (lit "btree") none .none }

/-- What the tables stand for. -/
def exOwn (t : Str × Str) : Described :=
  if t = (lit "public", lit "users") then { exDescribed[0] with indexes := exNameKey :: exDescribed[0].indexes } else exDescribed[1]

theorem exRelations_describe : ServerSays exRelations exOwn := by
  have hk : ∀ r ∈ exRelations, r.kind = 'v' ∨ r.kind = 'r' := by decide +kernel
  refine ⟨fun r hr hs => (hk r hr).resolve_left fun hv => ?_, fun r hr _ => exRelations_apart r hr, fun r hr _ => exRelations_simple r hr, fun r hr hs => ?_⟩
  · have := hs.1
    rw [hv] at this
    exact absurd this (by decide)
  have : r = exUsersRelation ∨ r = exPostsRelation := by
    simp only [exRelations, exOthers, List.mem_cons, List.not_mem_nil, or_false] at hr
    rcases hr with h | h | h | h
    · exact .inl h
    · exact .inr h
    · rw [h] at hs; exact absurd hs (by unfold Shown; decide +kernel)
    · rw [h] at hs; exact absurd hs (by unfold Shown; decide +kernel)
  rcases this with rfl | rfl
  · obtain ⟨h, ho⟩ := exCatalog_users
    rw [show exOwn (exUsersRelation.schema, exUsersRelation.name) = { exDescribed[0] with indexes := exNameKey :: exDescribed[0].indexes } from rfl]
    constructor
    · refine ⟨h.table, by unfold Untrimmed; decide, ?_, h.foreignKeys, h.policies⟩
      rw [show ((ownCatalog exUsersRelation).indexes exUsersRelation.schema exUsersRelation.name).filter (fun row => ¬ IsKeyIndex row) =
        (txt "users_name_key", txt "CREATE UNIQUE INDEX users_name_key ON public.users USING btree (name)") ::
          (exCatalog.indexes (lit "public") (lit "users")).filter (fun row => ¬ IsKeyIndex row) by decide +kernel]
      refine .cons ⟨⟨?_, by decide, by decide⟩, ?_, by decide, by decide +kernel, by decide⟩ h.indexes
      · exact layout_of_test [("", "CREATE"), (" ", "UNIQUE"), (" ", "INDEX"), (" ", "users_name_key"), (" ", "ON"), (" ", "public"), ("", "."), ("", "users"),
          (" ", "USING"), (" ", "btree"), (" ", "("), ("", "name"), ("", ")")] (by decide +kernel)
      · simp [IndexForm.Clear, ClearCondition, Ex.Proper, Ex.AllProper, Ex.level, Ex.depth, Ex.depths, IndexOpts.all, exNameKey]
    · refine ⟨by decide, ?_, by decide, ?_, by decide, by decide, fun _ => rfl, by decide⟩
      · intro i hi
        rcases List.mem_cons.mp hi with rfl | hi
        · rfl
        · exact ho.indexTables i hi
      · intro i hi
        rcases List.mem_cons.mp hi with rfl | hi
        · exact List.nodup_nil
        · exact ho.indexOptions i hi
  · obtain ⟨h, ho⟩ := exCatalog_posts
    exact ⟨⟨h.table, h.untrimmed, h.indexes, h.foreignKeys, h.policies⟩,
      ho.columns, ho.indexTables, ho.indexNames, ho.indexOptions, ho.keyTables, ho.keyNames, ho.policySchema, ho.policyNames⟩

/-- Whatever the order of the rows: what was exported changes nothing. -/
example (cat cat' : Pg.Catalog) (h : Answers exRelations cat) (h' : Answers exRelations cat') (hv : cat.views = []) (hv' : cat'.views = [])
    (fs fs' : Files) (o o' : Options) (ho : o.export_ = true) (ho' : o'.export_ = false) :
    ∃ text, run (Sql.env id) .postgres (Pg.database exServer fun _ => cat) fs o () = { events := [.print text], err := none, state := () } ∧
      (readFile fs' o'.sqlFile = .ok text →
        run (Sql.env id) .postgres (Pg.database exServer fun _ => cat') fs' o' () =
          { events := [.readFile, .print (lit "-- Nothing is modified --\n")], err := none, state := () }) :=
  C61_export_is_a_fixed_point_in_any_order id exServer exServer exRelations _ _ () () exRelations_sound h h' hv hv' exOwn
    exRelations_describe fs fs' o o' ho ho'

/-- The dropped column is not shown, and the array is shown by its formatted type. -/
example (cat : Pg.Catalog) (h : Answers exRelations cat) :
    (cat.columns (lit "public") (lit "users")).map (·.name) = [lit "id", lit "name", lit "age"] ∧
    (cat.columns (lit "app") (lit "posts")).map (·.dataType) =
      [lit "bigint", lit "bigint", lit "bigint", lit "text[]", txt "timestamp without time zone"] ∧
    cat.primaryKey (lit "app") (lit "posts") = [lit "id", lit "user id"] := by
  obtain ⟨h1, -⟩ := C61_table_is_described_by_itself _ _ exRelations_sound h exUsersRelation (by simp [exRelations]) rfl
    (exRelations_apart _ (by simp [exRelations])) (exRelations_simple _ (by simp [exRelations]))
  obtain ⟨h2, h3, -⟩ := C61_table_is_described_by_itself _ _ exRelations_sound h exPostsRelation (by simp [exRelations]) rfl
    (exRelations_apart _ (by simp [exRelations])) (exRelations_simple _ (by simp [exRelations]))
  refine ⟨?_, ?_, h3.trans (by decide +kernel)⟩
  · rw [show lit "public" = exUsersRelation.schema from rfl, show lit "users" = exUsersRelation.name from rfl, h1]
    decide +kernel
  · rw [show lit "app" = exPostsRelation.schema from rfl, show lit "posts" = exPostsRelation.name from rfl, h2]
    decide +kernel

/-! ### What is mixed up -/

/-- Two tables of the same name. -/
def twoSchemas : List Relation :=
  [{ schema := lit "public", name := lit "users"
     attributes := [{ num := 1, name := lit "id", dataType := lit "bigint", formatted := lit "bigint", isNullable := lit "NO" },
                    { num := 2, name := lit "name", dataType := lit "text", formatted := lit "text" }]
     constraints := [{ name := lit "users_pkey", kind := .primary, key := [1] }]
     indexes := [(lit "users_pkey", txt "CREATE UNIQUE INDEX users_pkey ON public.users USING btree (id)")] },
   { schema := lit "app", name := lit "users"
     attributes := [{ num := 1, name := lit "id", dataType := lit "bigint", formatted := lit "bigint", isNullable := lit "NO" }]
     constraints := [{ name := lit "users_pkey", kind := .primary, key := [1] }]
     indexes := [(lit "users_pkey", txt "CREATE UNIQUE INDEX users_pkey ON app.users USING btree (id)")] }]

theorem twoSchemas_sound : Sound twoSchemas := by
  constructor <;> decide +kernel

/-- **C61, a limit.** Tables of the same name in two schemas are mixed up (/repo/adapter/postgres/postgres.go:223 and 302 join
on names without the schema): each of them is shown with every common column twice, and with both primary keys as one. A
schema that describes the database exactly drops and adds both primary keys, in this run and in every later one. -/
theorem C61_tables_of_the_same_name_are_mixed_up : ∃ cat, Answers twoSchemas cat ∧
    (cat.columns (lit "public") (lit "users")).map (·.name) = [lit "id", lit "id", lit "name"] ∧
    cat.primaryKey (lit "public") (lit "users") = [lit "id", lit "id"] ∧
    ∃ text, dumpDDLs (Pg.database exServer fun _ => cat) () = .ok text ∧
      generateIdempotentDDLs (Sql.env id) .postgres
        (txt "CREATE TABLE public.users (id bigint NOT NULL, name text, PRIMARY KEY (id));\nCREATE TABLE app.users (id bigint NOT NULL, PRIMARY KEY (id));")
        text = .ok
        [txt "ALTER TABLE \"public\".\"users\" DROP CONSTRAINT \"users_pkey\"", txt "ALTER TABLE \"public\".\"users\" ADD primary key (\"id\")",
         txt "ALTER TABLE \"app\".\"users\" DROP CONSTRAINT \"users_pkey\"", txt "ALTER TABLE \"app\".\"users\" ADD primary key (\"id\")"] := by
  refine ⟨someAnswer twoSchemas [], answers_someAnswer _ _, by decide +kernel, by decide +kernel,
    txt "CREATE TABLE public.users (\n    \"id\" bigint NOT NULL,\n    \"id\" bigint NOT NULL,\n    \"name\" text,\n    PRIMARY KEY (\"id\", \"id\")\n);\n\nCREATE TABLE app.users (\n    \"id\" bigint NOT NULL,\n    \"id\" bigint NOT NULL,\n    PRIMARY KEY (\"id\", \"id\")\n)",
    dumped_of_check (by decide +kernel), ok_of_check (by decide +kernel)⟩

/-- A table in which the pairs of two columns are unique. -/
def pairUnique : List Relation :=
  [{ schema := lit "public", name := lit "t"
     attributes := [{ num := 1, name := lit "a", dataType := lit "bigint", formatted := lit "bigint" },
                    { num := 2, name := lit "b", dataType := lit "bigint", formatted := lit "bigint" }]
     constraints := [{ name := lit "t_a_b_key", kind := .unique, key := [1, 2] }]
     indexes := [(lit "t_a_b_key", txt "CREATE UNIQUE INDEX t_a_b_key ON public.t USING btree (a, b)")] }]

/-- **C61, a limit.** If the pairs of two columns are unique, then each of the columns is shown as unique on its own
(/repo/adapter/postgres/postgres.go:221): a schema that wants both to be unique is taken to be there already. -/
theorem C61_unique_pairs_are_shown_as_unique_columns : ∃ cat, Answers pairUnique cat ∧
    (cat.columns (lit "public") (lit "t")).map (fun c => (c.name, c.isUnique)) = [(lit "a", true), (lit "b", true)] ∧
    ∃ text, dumpDDLs (Pg.database exServer fun _ => cat) () = .ok text ∧
      generateIdempotentDDLs (Sql.env id) .postgres
        (txt "CREATE TABLE t (a bigint UNIQUE, b bigint UNIQUE);\nCREATE UNIQUE INDEX t_a_b_key ON t (a, b);") text = .ok [] := by
  refine ⟨someAnswer pairUnique [], answers_someAnswer _ _, by decide +kernel,
    txt "CREATE TABLE public.t (\n    \"a\" bigint UNIQUE,\n    \"b\" bigint UNIQUE\n);\nCREATE UNIQUE INDEX t_a_b_key ON public.t USING btree (a, b)",
    dumped_of_check (by decide +kernel), ok_of_check (by decide +kernel)⟩

/-- Two tables whose foreign keys have the same name. -/
def sharedName : List Relation :=
  [{ schema := lit "public", name := lit "t"
     attributes := [{ num := 1, name := lit "a", dataType := lit "bigint", formatted := lit "bigint" }]
     constraints := [{ name := lit "fk", kind := .foreign, key := [1], refSchema := lit "public", refTable := lit "u", refColumns := [lit "x"],
                       updateRule := lit "NO ACTION", deleteRule := lit "CASCADE" }] },
   { schema := lit "public", name := lit "s"
     attributes := [{ num := 1, name := lit "b", dataType := lit "bigint", formatted := lit "bigint" }]
     constraints := [{ name := lit "fk", kind := .foreign, key := [1], refSchema := lit "public", refTable := lit "v", refColumns := [lit "y"],
                       updateRule := lit "NO ACTION", deleteRule := lit "NO ACTION" }] }]

/-- **C61, a limit.** Foreign keys of the same name in two tables are multiplied (/repo/adapter/postgres/postgres.go:334-339
join on the name of the constraint only): each of the tables is shown with eight foreign keys, among them one on a column that
the table does not have. -/
theorem C61_foreign_keys_of_the_same_name_are_multiplied (cat : Pg.Catalog) (h : Answers sharedName cat) :
    (cat.foreignKeys (lit "public") (lit "t")).length = 8 ∧ ∃ row ∈ cat.foreignKeys (lit "public") (lit "t"), row.columnName = lit "b" := by
  have hp := h.foreignKeys (lit "public") (lit "t")
  refine ⟨hp.length_eq.trans (by decide +kernel), ?_⟩
  have : ∃ row ∈ foreignKeysQuery sharedName (lit "public") (lit "t"), row.columnName = lit "b" := by decide +kernel
  obtain ⟨row, h1, h2⟩ := this
  exact ⟨row, hp.mem_iff.mpr h1, h2⟩

/-- **C61, a limit.** A partitioned table is listed but its columns are not (/repo/adapter/postgres/postgres.go:40 and 224):
whatever it contains, it is shown as a table without columns, which the tool cannot read, as stated by
`C58_some_tables_cannot_be_read`. -/
theorem C61_partitioned_tables_have_no_columns (db : List Relation) (cat : Pg.Catalog) (h : Answers db cat) (r : Relation)
    (hs : Sound db) (hr : r ∈ db) (hk : r.kind = 'p') (hn : Shown r) :
    (r.schema, r.name) ∈ cat.tables ∧ cat.columns r.schema r.name = [] := by
  refine ⟨((answers_tables h hs).2 _).mpr ⟨r, hr, hn, rfl⟩, ?_⟩
  obtain ⟨rows, h1, -, h3⟩ := h.columns r.schema r.name
  have : columnsQuery db r.schema r.name = [] := by
    unfold columnsQuery
    rw [List.filter_eq_nil_iff.mpr]
    · rfl
    · intro c hc
      simp only [decide_eq_true_eq, not_and]
      intro hkc h4 h5
      have hrc : c ∈ db.filter fun c => c.schema = r.schema ∧ c.name = r.name := List.mem_filter.mpr ⟨hc, by simp [h4, h5]⟩
      rw [relation_filter hs hr] at hrc
      rw [List.mem_singleton.mp hrc, hk] at hkc
      exact absurd hkc (by decide)
  rw [this] at h1
  rw [List.perm_nil.mp h1] at h3
  exact List.map_eq_nil_iff.mp h3

example (cat : Pg.Catalog) (h : Answers [{ exUsersRelation with kind := 'p' }] cat) :
    (lit "public", lit "users") ∈ cat.tables ∧ cat.columns (lit "public") (lit "users") = [] := by
  refine C61_partitioned_tables_have_no_columns _ _ h { exUsersRelation with kind := 'p' } ?_ (by simp) rfl ?_
  · constructor <;> decide +kernel
  · unfold Shown
    decide +kernel

end Sqldef
