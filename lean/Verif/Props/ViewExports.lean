import Verif.Proofs.ViewDump
import Verif.Props.StoredText
/-
C68: the export of a database with views.
-/
namespace Sqldef
open Spec Written Dumped

/-! ### Postgres -/

/-- **C68.** The dump of a Postgres database is read without an error, as the statements that the catalog stands for: for
every table its statements, as in C58, and for every view its name and its query. -/
theorem C68_postgres_dump_is_understood (fmtFloat : Str → Str) {σ : Type} (db : Db σ) (cat : σ → Pg.Catalog) (s : σ) (ds : List Described)
    (vs : List NewView) (h : List.Forall₂ (fun t d => CatalogSays (cat s) t.1 t.2 d) (cat s).tables ds)
    (hv : List.Forall₂ (fun r v => PgViewSays r.1 r.2.1 r.2.2 v) (cat s).views vs) :
    ∃ text defs views, dumpDDLs (Pg.database db cat) s = .ok text ∧ parseDDLs (Sql.env fmtFloat) .postgres text = .ok (defs ++ views) ∧
      List.Forall₂ (fun x d => SaysTheSame .postgres d.statement (Sentence.meaning x) d ∧ x.Kind d) (ds.flatMap Described.sentences) defs ∧
      List.Forall₂ (fun v d => d = .view { statement := d.statement, name := toLower v.name.name, definition := v.query.text }) vs views := by
  obtain ⟨text, h1, h2, -, -⟩ := pg_all db cat s h hv
  obtain ⟨ds', h3, h4, -⟩ := C67_file_is_understood fmtFloat .postgres text _ h2 (mixed_clear (all_clear h) (pgViews_clear hv))
  obtain ⟨defs, views, g1, g2, rfl⟩ := forall₂_split h4
  exact ⟨text, defs, views, h1, h3, forall₂_unmap g1, forall₂_unmap g2⟩

/-- **C68.** A file with the statements that the catalog of a Postgres database stands for, views included, written in
whatever layout, changes nothing. -/
theorem C68_postgres_described_schema_changes_nothing (fmtFloat : Str → Str) {σ : Type} (db : Db σ) (cat : σ → Pg.Catalog) (s : σ)
    (ds : List Described) (vs : List NewView) (hn : (cat s).tables.Nodup)
    (h : List.Forall₂ (fun t d => CatalogSays (cat s) t.1 t.2 d ∧ Orderly (cat s) t.1 t.2 d) (cat s).tables ds)
    (hv : List.Forall₂ (fun r v => PgViewSays r.1 r.2.1 r.2.2 v) (cat s).views vs) (hd : ViewsDiffer vs)
    (fs : Files) (o : Options) (he : o.export_ = false) (file : Str) (hr : readFile fs o.sqlFile = .ok file)
    (hf : Consists .postgres file ((ds.flatMap Described.sentences).map Statement.sentence ++ vs.map Statement.view)) :
    run (Sql.env fmtFloat) .postgres (Pg.database db cat) fs o s =
      { events := [.readFile, .print (lit "-- Nothing is modified --\n")], err := none, state := s } := by
  have h' := forall₂_imp (fun _ _ hx => And.left hx) h
  obtain ⟨text, h1, h2, -, -⟩ := pg_all db cat s h' hv
  exact run_mixed fmtFloat (fun _ hx => described_normal hn h hx) hd (all_clear h') (pgViews_clear hv) h1 h2 he hr hf

/-- **C68.** Applying an export of a Postgres database with views changes nothing. -/
theorem C68_postgres_export_is_a_fixed_point (fmtFloat : Str → Str) {σ : Type} (db : Db σ) (cat : σ → Pg.Catalog) (s : σ)
    (ds : List Described) (vs : List NewView) (hn : (cat s).tables.Nodup)
    (h : List.Forall₂ (fun t d => CatalogSays (cat s) t.1 t.2 d ∧ Orderly (cat s) t.1 t.2 d) (cat s).tables ds)
    (hv : List.Forall₂ (fun r v => PgViewSays r.1 r.2.1 r.2.2 v) (cat s).views vs) (hd : ViewsDiffer vs)
    (fs fs' : Files) (o o' : Options) (ho : o.export_ = true) (ho' : o'.export_ = false) :
    ∃ text, run (Sql.env fmtFloat) .postgres (Pg.database db cat) fs o s = { events := [.print text], err := none, state := s } ∧
      (readFile fs' o'.sqlFile = .ok text →
        run (Sql.env fmtFloat) .postgres (Pg.database db cat) fs' o' s =
          { events := [.readFile, .print (lit "-- Nothing is modified --\n")], err := none, state := s }) := by
  have h' := forall₂_imp (fun _ _ hx => And.left hx) h
  obtain ⟨text, h1, h2, h3, h4⟩ := pg_all db cat s h' hv
  exact export_mixed fmtFloat (fun _ hx => described_normal hn h hx) hd (all_clear h') (pgViews_clear hv) h1 h2 h3 h4 fs fs' o o' ho ho'

/-! ### MySQL and SQLite -/

/-- **C68.** The dump of a MySQL database is read without an error, as its tables and its views. -/
theorem C68_mysql_dump_is_understood (fmtFloat : Str → Str) {σ : Type} (db : Db σ) (cat : σ → My.Catalog) (s : σ) (ts : List Written.Table)
    (vs : List NewView) (h : MyDatabaseSays (cat s) ts vs) (ho : OrderlyTables .mysql ts) :
    ∃ text defs views, dumpDDLs (My.database db cat) s = .ok text ∧ parseDDLs (Sql.env fmtFloat) .mysql text = .ok (defs ++ views) ∧
      List.Forall₂ (fun t d => SaysTheSame .mysql d.statement (Sentence.meaning (.table t)) d) ts defs ∧
      List.Forall₂ (fun v d => d = .view { statement := d.statement, name := toLower v.name.name, definition := v.query.text }) vs views := by
  obtain ⟨texts, h1, h2⟩ := my_all db cat s h
  obtain ⟨ds', h3, h4, -⟩ := C67_file_is_understood fmtFloat .mysql _ _ (consists_joined h2).1 (mixed_clear (orderly_clear ho) (myViews_clear h.views))
  obtain ⟨defs, views, g1, g2, rfl⟩ := forall₂_split h4
  exact ⟨_, defs, views, h1, h3, forall₂_imp (fun _ _ hx => hx.1) (forall₂_unmap (forall₂_unmap g1)), forall₂_unmap g2⟩

/-- **C68.** A file with the tables and the views of a MySQL database, written in whatever layout, changes nothing. -/
theorem C68_mysql_described_schema_changes_nothing (fmtFloat : Str → Str) {σ : Type} (db : Db σ) (cat : σ → My.Catalog) (s : σ)
    (ts : List Written.Table) (vs : List NewView) (h : MyDatabaseSays (cat s) ts vs) (ho : OrderlyTables .mysql ts) (hd : ViewsDiffer vs)
    (fs : Files) (o : Options) (he : o.export_ = false) (file : Str) (hr : readFile fs o.sqlFile = .ok file)
    (hf : Consists .mysql file ((ts.map Sentence.table).map Statement.sentence ++ vs.map Statement.view)) :
    run (Sql.env fmtFloat) .mysql (My.database db cat) fs o s =
      { events := [.readFile, .print (lit "-- Nothing is modified --\n")], err := none, state := s } := by
  obtain ⟨texts, h1, h2⟩ := my_all db cat s h
  exact run_mixed fmtFloat (fun _ hx => tables_normal (by decide) ho hx) hd (orderly_clear ho) (myViews_clear h.views) h1 (consists_joined h2).1 he hr hf

/-- **C68.** Applying an export of a MySQL database with views changes nothing. -/
theorem C68_mysql_export_is_a_fixed_point (fmtFloat : Str → Str) {σ : Type} (db : Db σ) (cat : σ → My.Catalog) (s : σ)
    (ts : List Written.Table) (vs : List NewView) (h : MyDatabaseSays (cat s) ts vs) (ho : OrderlyTables .mysql ts) (hd : ViewsDiffer vs)
    (fs fs' : Files) (o o' : Options) (hx : o.export_ = true) (hx' : o'.export_ = false) :
    ∃ text, run (Sql.env fmtFloat) .mysql (My.database db cat) fs o s = { events := [.print text], err := none, state := s } ∧
      (readFile fs' o'.sqlFile = .ok text →
        run (Sql.env fmtFloat) .mysql (My.database db cat) fs' o' s =
          { events := [.readFile, .print (lit "-- Nothing is modified --\n")], err := none, state := s }) := by
  obtain ⟨texts, h1, h2⟩ := my_all db cat s h
  obtain ⟨c1, c2, c3⟩ := consists_joined h2
  exact export_mixed fmtFloat (fun _ hx => tables_normal (by decide) ho hx) hd (orderly_clear ho) (myViews_clear h.views) h1 c1 c2 c3 fs fs' o o' hx hx'

/-- **C68.** The dump of a SQLite database is read without an error, as its tables and its views. -/
theorem C68_sqlite_dump_is_understood (fmtFloat : Str → Str) {σ : Type} (db : Db σ) (master : σ → List Lite.Object) (s : σ)
    (ts : List Written.Table) (vs : List NewView) (h : LiteDatabaseSays (master s) ts vs) (ho : OrderlyTables .sqlite3 ts) :
    ∃ text defs views, dumpDDLs (Lite.database db master) s = .ok text ∧ parseDDLs (Sql.env fmtFloat) .sqlite3 text = .ok (defs ++ views) ∧
      List.Forall₂ (fun t d => SaysTheSame .sqlite3 d.statement (Sentence.meaning (.table t)) d) ts defs ∧
      List.Forall₂ (fun v d => d = .view { statement := d.statement, name := toLower v.name.name, definition := v.query.text }) vs views := by
  obtain ⟨texts, h1, h2⟩ := lite_all db master s h
  obtain ⟨ds', h3, h4, -⟩ := C67_file_is_understood fmtFloat .sqlite3 _ _ (consists_joined h2).1 (mixed_clear (orderly_clear ho) (liteViews_clear h.views))
  obtain ⟨defs, views, g1, g2, rfl⟩ := forall₂_split h4
  exact ⟨_, defs, views, h1, h3, forall₂_imp (fun _ _ hx => hx.1) (forall₂_unmap (forall₂_unmap g1)), forall₂_unmap g2⟩

/-- **C68.** A file with the tables and the views of a SQLite database, written in whatever layout, changes nothing. -/
theorem C68_sqlite_described_schema_changes_nothing (fmtFloat : Str → Str) {σ : Type} (db : Db σ) (master : σ → List Lite.Object) (s : σ)
    (ts : List Written.Table) (vs : List NewView) (h : LiteDatabaseSays (master s) ts vs) (ho : OrderlyTables .sqlite3 ts) (hd : ViewsDiffer vs)
    (fs : Files) (o : Options) (he : o.export_ = false) (file : Str) (hr : readFile fs o.sqlFile = .ok file)
    (hf : Consists .sqlite3 file ((ts.map Sentence.table).map Statement.sentence ++ vs.map Statement.view)) :
    run (Sql.env fmtFloat) .sqlite3 (Lite.database db master) fs o s =
      { events := [.readFile, .print (lit "-- Nothing is modified --\n")], err := none, state := s } := by
  obtain ⟨texts, h1, h2⟩ := lite_all db master s h
  exact run_mixed fmtFloat (fun _ hx => tables_normal (by decide) ho hx) hd (orderly_clear ho) (liteViews_clear h.views) h1 (consists_joined h2).1 he hr hf

/-- **C68.** Applying an export of a SQLite database with views changes nothing. -/
theorem C68_sqlite_export_is_a_fixed_point (fmtFloat : Str → Str) {σ : Type} (db : Db σ) (master : σ → List Lite.Object) (s : σ)
    (ts : List Written.Table) (vs : List NewView) (h : LiteDatabaseSays (master s) ts vs) (ho : OrderlyTables .sqlite3 ts) (hd : ViewsDiffer vs)
    (fs fs' : Files) (o o' : Options) (hx : o.export_ = true) (hx' : o'.export_ = false) :
    ∃ text, run (Sql.env fmtFloat) .sqlite3 (Lite.database db master) fs o s = { events := [.print text], err := none, state := s } ∧
      (readFile fs' o'.sqlFile = .ok text →
        run (Sql.env fmtFloat) .sqlite3 (Lite.database db master) fs' o' s =
          { events := [.readFile, .print (lit "-- Nothing is modified --\n")], err := none, state := s }) := by
  obtain ⟨texts, h1, h2⟩ := lite_all db master s h
  obtain ⟨c1, c2, c3⟩ := consists_joined h2
  exact export_mixed fmtFloat (fun _ hx => tables_normal (by decide) ho hx) hd (orderly_clear ho) (liteViews_clear h.views) h1 c1 c2 c3 fs fs' o o' hx hx'

/-! ### What is lost -/

/-- **C68**, what is lost: in a Postgres database, runs of spaces and line breaks, also those within a string or a quoted
name. Two databases that differ in nothing else are described by the same text, so that the same is done to them. -/
theorem C68_spaces_in_strings_are_lost {σ : Type} (db : Db σ) (cat : Pg.Catalog) (schema name a b : Str) (pre post : List (Str × Str × Str))
    (ha : ∀ c, a.head? = some c → isSpace c = false) (ha' : a ≠ []) (hb : ∀ c, b.getLast? = some c → isSpace c = false) (hb' : b ≠ []) (s : σ) :
    dumpDDLs (Pg.database db fun _ => { cat with views := pre ++ (schema, name, a ++ lit "  " ++ b) :: post }) s =
      dumpDDLs (Pg.database db fun _ => { cat with views := pre ++ (schema, name, a ++ lit " " ++ b) :: post }) s ∧
    dumpDDLs (Pg.database db fun _ => { cat with views := pre ++ (schema, name, a ++ lit "\n" ++ b) :: post }) s =
      dumpDDLs (Pg.database db fun _ => { cat with views := pre ++ (schema, name, a ++ b) :: post }) s := by
  have same : ∀ x y : Str, viewText x = viewText y →
      dumpDDLs (Pg.database db fun _ => { cat with views := pre ++ (schema, name, x) :: post }) s =
      dumpDDLs (Pg.database db fun _ => { cat with views := pre ++ (schema, name, y) :: post }) s := by
    intro x y e
    have hv : Pg.views { cat with views := pre ++ (schema, name, x) :: post } = Pg.views { cat with views := pre ++ (schema, name, y) :: post } := by
      simp [Pg.views, e]
    have ht : ∀ names, dumpTables (Pg.database db fun _ => { cat with views := pre ++ (schema, name, x) :: post }) s names =
        dumpTables (Pg.database db fun _ => { cat with views := pre ++ (schema, name, y) :: post }) s names := by
      intro names
      induction names with
      | nil => rfl
      | cons n ns ih =>
        unfold dumpTables
        rw [ih]
        rfl
    unfold dumpDDLs
    change (dumpTables _ s (cat.tables.map fun t => t.1 ++ lit "." ++ t.2) >>= fun tables => Except.ok (join (lit ";\n\n") (tables ++ Pg.views _ ++ []))) =
      (dumpTables _ s (cat.tables.map fun t => t.1 ++ lit "." ++ t.2) >>= fun tables => Except.ok (join (lit ";\n\n") (tables ++ Pg.views _ ++ [])))
    rw [ht, hv]
  have trim : ∀ w : Str, trimSpace (a ++ w ++ b) = a ++ w ++ b := by
    intro w
    refine trimSpace_id ?_ ?_
    · intro c hc
      cases a with
      | nil => exact absurd rfl ha'
      | cons d a => exact ha c (by simpa using hc)
    · intro c hc
      rw [List.getLast?_append_of_ne_nil _ hb'] at hc
      exact hb c hc
  constructor
  · refine same _ _ ?_
    unfold viewText
    rw [trim, trim]
    have hf : b.filter (· ≠ '\n') ≠ [] := by
      intro e
      rcases List.eq_nil_or_concat b with rfl | ⟨r, d, rfl⟩
      · exact hb' rfl
      · have hd := hb d (by simp)
        have : d ≠ '\n' := by rintro rfl; revert hd; decide
        rw [List.concat_eq_append, List.filter_append, List.filter_cons_of_pos (by simpa using this)] at e
        simp at e
    have e : ∀ w : Str, '\n' ∉ w → trimSuffix (lit ";") ((a ++ w ++ b).filter (· ≠ '\n')) =
        a.filter (· ≠ '\n') ++ (w ++ trimSuffix (lit ";") (b.filter (· ≠ '\n'))) := by
      intro w hw
      rw [List.filter_append, List.filter_append, show lit ";" = [';'] from rfl, trimSuffix_mark hf, List.append_assoc]
      congr 2
      exact List.filter_eq_self.mpr fun c hc => by
        have : c ≠ '\n' := fun h => hw (h ▸ hc)
        simpa using this
    rw [e _ (by decide), e _ (by decide)]
    exact squeeze_double _ _
  · refine same _ _ ?_
    have : trimSpace (a ++ b) = a ++ b := by simpa using trim []
    unfold viewText
    rw [trim, this]
    simp [List.filter_append, lit]

/-- A Postgres database without tables. -/
def exNoTables : Pg.Catalog where
  tables := []
  columns := fun _ _ => []
  primaryKey := fun _ _ => []
  indexes := fun _ _ => []
  foreignKeys := fun _ _ => []
  policies := fun _ _ => []
  views := []

/-- **C68**, a limit: the name of a view is written without quotes, so that a view of MySQL or Postgres whose name
has a space or a hyphen in it or begins with a digit makes every run end with an error. -/
theorem C68_some_names_of_views_cannot_be_read : ∀ name ∈ [lit "my view", lit "my-view", lit "2020"],
    (∀ desired, ∃ text e, dumpDDLs (Pg.database exServer fun _ => { exNoTables with views := [(lit "public", name, lit " SELECT 1;")] }) () = .ok text ∧
      generateIdempotentDDLs (Sql.env id) .postgres desired text = .error e) ∧
    ∀ desired, ∃ text e, dumpDDLs (My.database exServer fun _ => { tables := [], createTable := fun _ => [], views := [(name, lit "select 1")], triggers := [] }) () =
      .ok text ∧ generateIdempotentDDLs (Sql.env id) .mysql desired text = .error e := by
  have all : ∀ name ∈ [lit "my view", lit "my-view", lit "2020"],
      (parseDDLs (Sql.env id) .postgres (txt "CREATE VIEW public." ++ name ++ txt " AS SELECT 1")).toOption.isNone = true ∧
      (parseDDLs (Sql.env id) .mysql (txt "CREATE VIEW " ++ name ++ txt " AS select 1")).toOption.isNone = true := by decide +kernel
  have texts : ∀ name ∈ [lit "my view", lit "my-view", lit "2020"],
      dumpDDLs (Pg.database exServer fun _ => { exNoTables with views := [(lit "public", name, lit " SELECT 1;")] }) () =
        .ok (txt "CREATE VIEW public." ++ name ++ txt " AS SELECT 1") ∧
      dumpDDLs (My.database exServer fun _ => { tables := [], createTable := fun _ => [], views := [(name, lit "select 1")], triggers := [] }) () =
        .ok (txt "CREATE VIEW " ++ name ++ txt " AS select 1") := by
    have h : ∀ name ∈ [lit "my view", lit "my-view", lit "2020"],
        (dumpDDLs (Pg.database exServer fun _ => { exNoTables with views := [(lit "public", name, lit " SELECT 1;")] }) ()).toOption =
          some (txt "CREATE VIEW public." ++ name ++ txt " AS SELECT 1") ∧
        (dumpDDLs (My.database exServer fun _ => { tables := [], createTable := fun _ => [], views := [(name, lit "select 1")], triggers := [] }) ()).toOption =
          some (txt "CREATE VIEW " ++ name ++ txt " AS select 1") := by decide +kernel
    exact fun name hn => ⟨dumped_of_check (h name hn).1, dumped_of_check (h name hn).2⟩
  intro name hn
  obtain ⟨h1, h2⟩ := all name hn
  obtain ⟨t1, t2⟩ := texts name hn
  refine ⟨fun desired => ?_, fun desired => ?_⟩
  · obtain ⟨e, he⟩ := unreadable (Option.isNone_iff_eq_none.mp h1) desired
    exact ⟨_, e, t1, he⟩
  · obtain ⟨e, he⟩ := unreadable (Option.isNone_iff_eq_none.mp h2) desired
    exact ⟨_, e, t2, he⟩

/-! ### Examples -/

/-- A view as Postgres shows it. -/
def exPgDefinition : Str := txt " SELECT users.id,\n    users.name AS \"N\"\n   FROM users\n  WHERE (users.id > 18);"

def exPgView : NewView :=
  { name := { schema := some (lit "public"), name := lit "adults" },
    query :=
      { first := .value (.qualified (lit "users") (lit "id")) none,
        rest := [.value (.qualified (lit "users") (lit "name")) (some { name := lit "N" })],
        sources := some (.table { name := lit "users" } none, []),
        condition := some (.tuple (.compare .gt (.qualified (lit "users") (lit "id")) (.integer (lit "18"))) []) } }

theorem exPgView_says : PgViewSays (lit "public") (lit "adults") exPgDefinition exPgView where
  bare := ⟨bareName_of_test (by decide +kernel), bareName_of_test (by decide +kernel)⟩
  view := ⟨rfl, rfl⟩
  query := by
    have g : ∀ n ∈ [lit "users", lit "id", lit "name", lit "N"], GoodName n := by
      have h : ∀ n ∈ [lit "users", lit "id", lit "name", lit "N"], n ≠ [] ∧ ¬ lit "@@" <+: n ∧ ∀ c ∈ n, c.toNat < 65536 := by decide
      exact h
    have j : GoodInt (lit "18") := ⟨lit "18", by decide, by decide, .inl rfl⟩
    simp [exPgView, Query.Clear, Picked.Clear, ClearEx, GoodAlias, Source.Clear, Source.Proper, Source.depth, Ex.Proper, Ex.AllProper, Ex.level, Ex.depth, Ex.depths, g, j]
  text := by
    refine ⟨txt "SELECT users.id,\n    users.name AS \"N\"\n   FROM users\n  WHERE (users.id > 18)", .inr (by decide +kernel), ?_, by decide +kernel, by decide +kernel⟩
    exact tidy_of_test [("", "SELECT"), (" ", "users"), ("", "."), ("", "id"), ("", ","), ("\n    ", "users"), ("", "."), ("", "name"), (" ", "AS"), (" ", "\"N\""),
      ("\n   ", "FROM"), (" ", "users"), ("\n  ", "WHERE"), (" ", "("), ("", "users"), ("", "."), ("", "id"), (" ", ">"), (" ", "18"), ("", ")")] (by decide +kernel)

theorem catalogSays_views {cat : Pg.Catalog} (views : List (Str × Str × Str)) {schema name : Str} {d : Described}
    (h : CatalogSays cat schema name d ∧ Orderly cat schema name d) :
    CatalogSays { cat with views := views } schema name d ∧ Orderly { cat with views := views } schema name d :=
  ⟨⟨h.1.table, h.1.untrimmed, h.1.indexes, h.1.foreignKeys, h.1.policies⟩,
    ⟨h.2.columns, h.2.indexTables, h.2.indexNames, h.2.indexOptions, h.2.keyTables, h.2.keyNames, h.2.policySchema, h.2.policyNames⟩⟩

/-- The database of C58 with the view: what is exported can be applied. -/
example (fs fs' : Files) (o o' : Options) (ho : o.export_ = true) (ho' : o'.export_ = false) :
    ∃ text, run (Sql.env id) .postgres (Pg.database exServer fun _ => { exCatalog with views := [(lit "public", lit "adults", exPgDefinition)] }) fs o () =
        { events := [.print text], err := none, state := () } ∧
      (readFile fs' o'.sqlFile = .ok text →
        run (Sql.env id) .postgres (Pg.database exServer fun _ => { exCatalog with views := [(lit "public", lit "adults", exPgDefinition)] }) fs' o' () =
          { events := [.readFile, .print (lit "-- Nothing is modified --\n")], err := none, state := () }) :=
  C68_postgres_export_is_a_fixed_point id exServer (fun _ => { exCatalog with views := [(lit "public", lit "adults", exPgDefinition)] }) () exDescribed [exPgView]
    (by decide) (forall₂_imp (fun _ _ hx => catalogSays_views _ hx) exCatalog_says) (.cons exPgView_says .nil) (by unfold ViewsDiffer; decide) fs fs' o o' ho ho'

/-- How the view is exported. -/
example : Pg.views { exNoTables with views := [(lit "public", lit "adults", exPgDefinition)] } =
    [txt "CREATE VIEW public.adults AS SELECT users.id, users.name AS \"N\" FROM users WHERE (users.id > 18)"] := by decide +kernel

/-- A view, with the names as MySQL shows them. -/
def exPlainView : NewView :=
  { name := { name := lit "v" },
    query :=
      { first := .value (.full (lit "db") (lit "t") (lit "a")) (some { name := lit "x" }),
        sources := some (.table { schema := some (lit "db"), name := lit "t" } none, []) } }

theorem exPlainView_clear : exPlainView.query.Clear := by
  have g : ∀ n ∈ [lit "db", lit "t", lit "a", lit "x"], GoodName n := by
    have h : ∀ n ∈ [lit "db", lit "t", lit "a", lit "x"], n ≠ [] ∧ ¬ lit "@@" <+: n ∧ ∀ c ∈ n, c.toNat < 65536 := by decide
    exact h
  simp [exPlainView, Query.Clear, Picked.Clear, ClearEx, GoodAlias, Source.Clear, Source.Proper, Source.depth, Ex.Proper, Ex.depth, g]

def exPlainTable : Written.Table := { name := { name := lit "t" }, first := { name := lit "a", type := .integer "integer" none false false } }

theorem exPlainTable_orderly (mode : Mode) (_ : mode = .mysql ∨ mode = .sqlite3) : OrderlyTables mode [exPlainTable] where
  clear := by
    simp [exPlainTable, Sentence.Clear, Table.Clear, Col.Clear, Ty.Known, integerWords, clearOptions, Sentence.InRange, Sentence.indexColumns]
  names := by decide
  tables := by
    intro t ht
    rw [List.mem_singleton.mp ht]
    refine ⟨by decide +kernel, by decide +kernel, by decide +kernel, by decide +kernel, by decide +kernel, fun _ => by decide +kernel⟩

def exMyViews : My.Catalog where
  tables := [lit "t"]
  createTable := fun _ => txt "CREATE TABLE `t` (\n  `a` integer\n)"
  views := [(lit "v", txt "select `db`.`t`.`a` AS `x` from `db`.`t`")]
  triggers := []

theorem exMyViews_says : MyDatabaseSays exMyViews [exPlainTable] [exPlainView] where
  tables := .cons ⟨layout_of_test [("", "CREATE"), (" ", "TABLE"), (" ", "`t`"), (" ", "("), ("\n  ", "`a`"), (" ", "integer"), ("\n", ")")] (by decide +kernel),
    by decide +kernel, by unfold NoComment; decide +kernel, by decide +kernel⟩ .nil
  views := .cons
    { bare := bareName_of_test (by decide +kernel)
      view := ⟨rfl, rfl⟩
      query := exPlainView_clear
      text := ⟨layout_of_test [("", "select"), (" ", "`db`"), ("", "."), ("", "`t`"), ("", "."), ("", "`a`"), (" ", "AS"), (" ", "`x`"), (" ", "from"), (" ", "`db`"), ("", "."), ("", "`t`")] (by decide +kernel),
        by decide +kernel, by unfold NoComment; decide +kernel, by decide +kernel⟩
      oneLine := by decide +kernel } .nil
  triggers := rfl

/-- What is exported from the MySQL database can be applied. -/
example (fs fs' : Files) (o o' : Options) (hx : o.export_ = true) (hx' : o'.export_ = false) :
    ∃ text, run (Sql.env id) .mysql (My.database exServer fun _ => exMyViews) fs o () = { events := [.print text], err := none, state := () } ∧
      (readFile fs' o'.sqlFile = .ok text → run (Sql.env id) .mysql (My.database exServer fun _ => exMyViews) fs' o' () =
        { events := [.readFile, .print (lit "-- Nothing is modified --\n")], err := none, state := () }) :=
  C68_mysql_export_is_a_fixed_point id exServer _ () _ _ exMyViews_says (exPlainTable_orderly _ (.inl rfl)) (by unfold ViewsDiffer; decide) fs fs' o o' hx hx'

/-- `sqlite_master` with a table and a view. -/
def exLiteViews : List Lite.Object :=
  [{ type := lit "table", tblName := lit "t", sql := some (txt "CREATE TABLE t (a integer)") },
   { type := lit "view", tblName := lit "v", sql := some (txt "CREATE VIEW v AS\nSELECT t.a x\n  FROM t") }]

/-- The view as it is written there. -/
def exLiteView : NewView :=
  { name := { name := lit "v" }, query := { first := .value (.qualified (lit "t") (lit "a")) (some { name := lit "x", as := false }), sources := some (.table { name := lit "t" } none, []) } }

theorem exLiteView_clear : exLiteView.query.Clear := by
  have g : ∀ n ∈ [lit "t", lit "a", lit "x"], GoodName n := by
    have h : ∀ n ∈ [lit "t", lit "a", lit "x"], n ≠ [] ∧ ¬ lit "@@" <+: n ∧ ∀ c ∈ n, c.toNat < 65536 := by decide
    exact h
  simp [exLiteView, Query.Clear, Picked.Clear, ClearEx, GoodAlias, Source.Clear, Source.Proper, Source.depth, Ex.Proper, Ex.depth, g]

theorem exLiteViews_says : LiteDatabaseSays exLiteViews [exPlainTable] [exLiteView] where
  tables := .cons ⟨_, rfl, layout_of_test [("", "CREATE"), (" ", "TABLE"), (" ", "t"), (" ", "("), ("", "a"), (" ", "integer"), ("", ")")] (by decide +kernel),
    by decide +kernel, by unfold NoComment; decide +kernel, by decide +kernel⟩ .nil
  first := by
    intro o ho ht
    simp only [exLiteViews, List.mem_cons, List.not_mem_nil, or_false] at ho
    rcases ho with rfl | rfl
    · rfl
    · exact absurd ht (by decide)
  views := .cons ⟨⟨_, rfl, layout_of_test [("", "CREATE"), (" ", "VIEW"), (" ", "v"), (" ", "AS"), ("\n", "SELECT"), (" ", "t"), ("", "."), ("", "a"), (" ", "x"), ("\n  ", "FROM"), (" ", "t")] (by decide +kernel),
    by decide +kernel, by unfold NoComment; decide +kernel, by decide +kernel⟩, exLiteView_clear⟩ .nil

/-- What is exported from the SQLite database can be applied. -/
example (fs fs' : Files) (o o' : Options) (hx : o.export_ = true) (hx' : o'.export_ = false) :
    ∃ text, run (Sql.env id) .sqlite3 (Lite.database exServer fun _ => exLiteViews) fs o () = { events := [.print text], err := none, state := () } ∧
      (readFile fs' o'.sqlFile = .ok text → run (Sql.env id) .sqlite3 (Lite.database exServer fun _ => exLiteViews) fs' o' () =
        { events := [.readFile, .print (lit "-- Nothing is modified --\n")], err := none, state := () }) :=
  C68_sqlite_export_is_a_fixed_point id exServer _ () _ _ exLiteViews_says (exPlainTable_orderly _ (.inr rfl)) (by unfold ViewsDiffer; decide) fs fs' o o' hx hx'

/-- Two different strings, and one dump. -/
example : dumpDDLs (Pg.database exServer fun _ => { exCatalog with views := [(lit "public", lit "v", txt "SELECT 'a  b' AS x;")] }) () =
    dumpDDLs (Pg.database exServer fun _ => { exCatalog with views := [(lit "public", lit "v", txt "SELECT 'a b' AS x;")] }) () :=
  (C68_spaces_in_strings_are_lost exServer exCatalog (lit "public") (lit "v") (lit "SELECT 'a") (lit "b' AS x;") [] [] (by decide) (by decide) (by decide)
    (by decide) ()).1

end Sqldef
