import Verif.Proofs.PgViews
import Verif.Props.PgServer
import Verif.Props.ViewExports
/-
C73: what the tool gets to know about the views of a Postgres server is what the server knows about them, whatever other views
there are and in whatever order the server returns the rows.
-/
namespace Sqldef
open Spec Written Dumped Spec.PgServer Pg

/-! ### What the server answers -/

/-- **C73.** The server can answer. -/
theorem C73_server_answers (db : List Relation) : ∃ cat, AnswersAll db cat :=
  ⟨someAnswer db (viewsQuery db), { answers_someAnswer db _ with views := .refl _ }⟩

/-- **C73.** Exactly the views outside the schemas of the system are listed, each once and with its own query. -/
theorem C73_views_are_listed (db : List Relation) (cat : Pg.Catalog) (hs : Sound db) (h : AnswersAll db cat) (ha : ViewsApart db) :
    (cat.views.map fun v => (v.1, v.2.1)).Nodup ∧
      ∀ v : Str × Str × Str, v ∈ cat.views ↔ ∃ r ∈ db, ShownView r ∧ (r.schema, r.name, r.definition) = v := by
  have hp : cat.views.Perm (ownViews db) := by
    rw [← viewsQuery_own hs ha]
    exact h.views
  constructor
  · refine (hp.map _).nodup_iff.mpr ?_
    rw [ownViews, List.map_map]
    exact (List.filter_sublist.map _).nodup hs.relations
  · intro v
    rw [hp.mem_iff, ownViews]
    simp only [List.mem_map, List.mem_filter, decide_eq_true_eq, and_assoc]

/-- **C73.** No view outside the schemas of the system is missed, and no view of the system is listed, whatever the names
are. -/
theorem C73_no_view_is_missed (db : List Relation) (cat : Pg.Catalog) (h : AnswersAll db cat) :
    (∀ r ∈ db, ShownView r → (r.schema, r.name, r.definition) ∈ cat.views) ∧
      ∀ v ∈ cat.views, ∃ r ∈ db, ShownView r ∧ (r.schema, r.name) = (v.1, v.2.1) := by
  constructor
  · intro r hr hv
    rw [h.views.mem_iff, viewsQuery_eq]
    exact List.mem_flatMap.mpr ⟨r, List.mem_filter.mpr ⟨hr, by simpa using hv⟩,
      List.mem_map.mpr ⟨r, List.mem_filter.mpr ⟨hr, by simp [hv.1]⟩, rfl⟩⟩
  · intro v hv
    rw [h.views.mem_iff, viewsQuery_eq] at hv
    obtain ⟨r, hr, hv⟩ := List.mem_flatMap.mp hv
    obtain ⟨hr, hs⟩ := List.mem_filter.mp hr
    obtain ⟨_, -, rfl⟩ := List.mem_map.mp hv
    exact ⟨r, hr, of_decide_eq_true hs, rfl⟩

/-! ### Runs -/

/-- **C73.** A file with the statements that the tables and the views stand for, in any order in which every statement comes
after the table it is about, changes nothing, whatever the order of the rows that the server returns. -/
theorem C73_described_server_is_left_alone (fmtFloat : Str → Str) {σ : Type} (db : Db σ) (server : σ → List Relation)
    (cat : σ → Pg.Catalog) (s : σ) (hs : Sound (server s)) (ha : AnswersAll (server s) (cat s)) (hv : ViewsApart (server s))
    (own : Str × Str → Described) (hd : ServerSays (server s) own) (vs : List NewView) (hvs : ViewsSay (server s) vs) (hdf : ViewsDiffer vs)
    (o : Options) (fs : Files) (he : o.export_ = false) (file : Str) (hr : readFile fs o.sqlFile = .ok file) (ss : List Written.Statement)
    (hp : ss.Perm (((ownTables (server s)).flatMap fun t => (own t).sentences).map .sentence ++ vs.map .view))
    (hf : Consists .postgres file ss) (defs : List DDL) (hdefs : parseDDLs (Sql.env fmtFloat) .postgres file = .ok defs)
    (hw : WellFormedCurrent defs) :
    run (Sql.env fmtFloat) .postgres (Pg.database db cat) fs o s =
      { events := [.readFile, .print (lit "-- Nothing is modified --\n")], err := none, state := s } :=
  server_views_same fmtFloat db cat s hs ha hv hd hvs hdf he hr (by rw [serverStatements, tablesQuery_own]; exact hp) hf hdefs hw

/-- **C73.** What was exported can be applied: if the file is what `--export` has printed for a database, then a run against a
database with the same tables and views changes nothing, even if the server now returns the rows in another order. -/
theorem C73_export_is_a_fixed_point_in_any_order (fmtFloat : Str → Str) {σ τ : Type} (db : Db σ) (db' : Db τ) (server : List Relation)
    (cat : σ → Pg.Catalog) (cat' : τ → Pg.Catalog) (s : σ) (s' : τ) (hs : Sound server) (ha : AnswersAll server (cat s))
    (ha' : AnswersAll server (cat' s')) (hv : ViewsApart server) (own : Str × Str → Described) (hd : ServerSays server own)
    (vs : List NewView) (hvs : ViewsSay server vs) (hdf : ViewsDiffer vs) (fs fs' : Files) (o o' : Options) (ho : o.export_ = true)
    (ho' : o'.export_ = false) :
    ∃ text, run (Sql.env fmtFloat) .postgres (Pg.database db cat) fs o s = { events := [.print text], err := none, state := s } ∧
      (readFile fs' o'.sqlFile = .ok text →
        run (Sql.env fmtFloat) .postgres (Pg.database db' cat') fs' o' s' =
          { events := [.readFile, .print (lit "-- Nothing is modified --\n")], err := none, state := s' }) := by
  obtain ⟨ss, text, h1, h2, h3, -, h4, h5, h6⟩ := server_everything fmtFloat db cat s hs ha hv hd hvs hdf
  refine ⟨if text = [] then lit "-- No table exists --\n" else text ++ lit ";\n", by simp only [run, h3, ho]; rfl, fun hr => ?_⟩
  have hf : Consists .postgres (if text = [] then lit "-- No table exists --\n" else text ++ lit ";\n") ss := by
    split
    · rename_i he
      rw [h5 he]
      unfold Consists
      rw [show statementTexts (lit "-- No table exists --\n") = [] by decide +kernel]
      exact .nil
    · exact h4
  obtain ⟨defs, d1, -, -⟩ := C67_file_is_understood fmtFloat .postgres _ _ hf h2
  have hn := h6 _ _ hf d1
  exact server_views_same fmtFloat db' cat' s' hs ha' hv hd hvs hdf ho' hr h1 hf d1 (wellFormedCurrent_of_wellFormed hn.wellFormed hn.noAddIndex)

/-! ### A server with views -/

/-- Two views, and one of the system. -/
def exViewRelations : List Relation :=
  [{ schema := lit "public", name := lit "adults", kind := 'v', definition := exPgDefinition,
     attributes := [{ num := 1, name := lit "id", dataType := lit "bigint", formatted := lit "bigint" },
                    { num := 2, name := lit "N", dataType := txt "character varying", formatted := txt "character varying(40)" }] },
   { schema := lit "information_schema", name := lit "columns", kind := 'v', definition := txt " SELECT a.attname AS column_name\n   FROM pg_attribute a;",
     attributes := [{ num := 1, name := txt "column_name", dataType := lit "name", formatted := lit "name" }] },
   { schema := lit "app", name := lit "recent", kind := 'v', definition := txt " SELECT posts.author\n   FROM app.posts;",
     attributes := [{ num := 1, name := lit "author", dataType := lit "bigint", formatted := lit "bigint" }] }]

/-- The tables of C61 with the views. -/
def exViewServer : List Relation := exUsersRelation :: exPostsRelation :: exViewRelations

def exRecentView : NewView :=
  { name := { schema := some (lit "app"), name := lit "recent" },
    query :=
      { first := .value (.qualified (lit "posts") (lit "author")) none,
        sources := some (.table { schema := some (lit "app"), name := lit "posts" } none, []) } }

theorem exRecentView_says : PgViewSays (lit "app") (lit "recent") (txt " SELECT posts.author\n   FROM app.posts;") exRecentView where
  bare := ⟨bareName_of_test (by decide +kernel), bareName_of_test (by decide +kernel)⟩
  view := ⟨rfl, rfl⟩
  query := by
    have g : ∀ n ∈ [lit "posts", lit "author", lit "app"], GoodName n := by
      have h : ∀ n ∈ [lit "posts", lit "author", lit "app"], n ≠ [] ∧ ¬ lit "@@" <+: n ∧ ∀ c ∈ n, c.toNat < 65536 := by decide
      exact h
    simp [exRecentView, Query.Clear, Picked.Clear, ClearEx, GoodAlias, Source.Clear, Source.Proper, Source.depth, Ex.Proper, Ex.AllProper, Ex.level, Ex.depth, Ex.depths, g]
  text := by
    refine ⟨txt "SELECT posts.author\n   FROM app.posts", .inr (by decide +kernel), ?_, by decide +kernel, by decide +kernel⟩
    exact tidy_of_test [("", "SELECT"), (" ", "posts"), ("", "."), ("", "author"), ("\n   ", "FROM"), (" ", "app"), ("", "."), ("", "posts")] (by decide +kernel)

theorem exViewServer_sound : Sound exViewServer := by
  constructor <;> decide +kernel

theorem exViewServer_apart : ViewsApart exViewServer := by
  unfold ViewsApart
  decide +kernel

theorem exViewServer_views : ViewsSay exViewServer [exPgView, exRecentView] := by
  unfold ViewsSay
  rw [show ownViews exViewServer = [(lit "public", lit "adults", exPgDefinition), (lit "app", lit "recent", txt " SELECT posts.author\n   FROM app.posts;")] by
    decide +kernel]
  exact .cons exPgView_says (.cons exRecentView_says .nil)

theorem exViewServer_describes : ServerSays exViewServer exOwn := by
  have hm : ∀ r ∈ exViewServer, Shown r → r = exUsersRelation ∨ r = exPostsRelation := by
    intro r hr hs
    simp only [exViewServer, exViewRelations, List.mem_cons, List.not_mem_nil, or_false] at hr
    rcases hr with h | h | h | h | h
    · exact .inl h
    · exact .inr h
    all_goals rw [h] at hs; exact absurd hs (by unfold Shown; decide +kernel)
  have hm' : ∀ r ∈ exViewServer, Shown r → r ∈ exRelations := by
    intro r hr hs
    rcases hm r hr hs with rfl | rfl <;> simp [exRelations]
  have h1 : ∀ r ∈ exViewServer, ∀ c ∈ exViewServer, c.name = r.name → c.schema ≠ r.schema → ∀ a ∈ live r, ∀ b ∈ live c, b.name ≠ a.name := by
    decide +kernel
  have h2 : ∀ r ∈ exViewServer, ∀ c ∈ exViewServer, (c.schema, c.name) ≠ (r.schema, r.name) → ∀ k ∈ r.constraints,
      k.kind = .primary ∨ k.kind = .foreign → ∀ l ∈ c.constraints, l.name ≠ k.name := by decide +kernel
  exact ⟨fun r hr hs => exRelations_describe.kind r (hm' r hr hs) hs, fun r hr _ => ⟨h1 r hr, h2 r hr⟩,
    fun r hr hs => exRelations_describe.simple r (hm' r hr hs) hs, fun r hr hs => exRelations_describe.described r (hm' r hr hs) hs⟩

/-- Whatever the order of the rows: what was exported changes nothing. -/
example (cat cat' : Pg.Catalog) (h : AnswersAll exViewServer cat) (h' : AnswersAll exViewServer cat') (fs fs' : Files) (o o' : Options)
    (ho : o.export_ = true) (ho' : o'.export_ = false) :
    ∃ text, run (Sql.env id) .postgres (Pg.database exServer fun _ => cat) fs o () = { events := [.print text], err := none, state := () } ∧
      (readFile fs' o'.sqlFile = .ok text →
        run (Sql.env id) .postgres (Pg.database exServer fun _ => cat') fs' o' () =
          { events := [.readFile, .print (lit "-- Nothing is modified --\n")], err := none, state := () }) :=
  C73_export_is_a_fixed_point_in_any_order id exServer exServer exViewServer _ _ () () exViewServer_sound h h' exViewServer_apart exOwn
    exViewServer_describes [exPgView, exRecentView] exViewServer_views (by unfold ViewsDiffer; decide) fs fs' o o' ho ho'

/-- The view of the system is not listed. -/
example (cat : Pg.Catalog) (h : AnswersAll exViewServer cat) : cat.views.length = 2 :=
  (h.views.length_eq).trans (by decide +kernel)

/-! ### What is mixed up -/

/-- A table and a view that is called like a view of the system. -/
def likeSystem : List Relation :=
  [{ schema := lit "public", name := lit "t", attributes := [{ num := 1, name := lit "a", dataType := lit "bigint", formatted := lit "bigint" }] },
   { schema := lit "public", name := lit "columns", kind := 'v', definition := txt " SELECT t.a\n   FROM t;",
     attributes := [{ num := 1, name := lit "a", dataType := lit "bigint", formatted := lit "bigint" }] },
   { schema := lit "information_schema", name := lit "columns", kind := 'v', definition := txt " SELECT a.attname AS column_name\n   FROM pg_attribute a;",
     attributes := [{ num := 1, name := txt "column_name", dataType := lit "name", formatted := lit "name" }] }]

theorem likeSystem_sound : Sound likeSystem := by
  constructor <;> decide +kernel

theorem error_of_check {α : Type} {e : Except Err α} (h : e.toOption.isNone = true) : ∃ x, e = .error x := by
  cases e with
  | ok a => simp [Except.toOption] at h
  | error x => exact ⟨x, rfl⟩

/-- **C73, a limit.** A view with the name of a view of the system is listed with the queries of both
(/repo/adapter/postgres/postgres.go:66 joins on the name without the schema). What is exported has two statements for the view and
cannot be applied. -/
theorem C73_views_named_like_system_views_cannot_be_exported : ∃ cat, AnswersAll likeSystem cat ∧
    ∃ text, dumpDDLs (Pg.database exServer fun _ => cat) () = .ok text ∧
      ∃ e, generateIdempotentDDLs (Sql.env id) .postgres (text ++ lit ";\n") text = .error e := by
  refine ⟨someAnswer likeSystem (viewsQuery likeSystem), { answers_someAnswer likeSystem _ with views := .refl _ },
    txt "CREATE TABLE public.t (\n    \"a\" bigint\n);\n\nCREATE VIEW public.columns AS SELECT t.a FROM t;\n\nCREATE VIEW public.columns AS SELECT a.attname AS column_name FROM pg_attribute a",
    dumped_of_check (by decide +kernel), error_of_check (by decide +kernel)⟩

/-- **C73, a limit.** If the server returns the row with the query of the system first, then the view is replaced in this run
and, as the rows stay the same, in every later one, although the schema describes the database exactly. -/
theorem C73_views_named_like_system_views_are_replaced : ∃ cat, AnswersAll likeSystem cat ∧
    ∃ text, dumpDDLs (Pg.database exServer fun _ => cat) () = .ok text ∧
      generateIdempotentDDLs (Sql.env id) .postgres (txt "CREATE TABLE t (a bigint);\nCREATE VIEW columns AS SELECT t.a FROM t;") text = .ok
        [txt "CREATE OR REPLACE VIEW \"public\".\"columns\" AS select t.a from t"] := by
  refine ⟨someAnswer likeSystem (viewsQuery likeSystem).reverse, { answers_someAnswer likeSystem _ with views := List.reverse_perm _ },
    txt "CREATE TABLE public.t (\n    \"a\" bigint\n);\n\nCREATE VIEW public.columns AS SELECT a.attname AS column_name FROM pg_attribute a;\n\nCREATE VIEW public.columns AS SELECT t.a FROM t",
    dumped_of_check (by decide +kernel), ok_of_check (by decide +kernel)⟩

end Sqldef
