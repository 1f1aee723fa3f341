import Verif.Proofs.MyServer
import Verif.Props.AnyOrder
import Verif.Props.Listed
import Verif.Props.Triggers
/-
C77: what the tool gets to know about a database on a MySQL server is what is in that database, except that the query of a view
may be the one of a view in another database.
-/
namespace Sqldef
open Spec Written Dumped Spec.MyServer

/-! ### What the server answers -/

/-- **C77.** The server can answer. -/
theorem C77_server_answers (srv : My.Server) (hs : MyServer.Sound srv) : ∃ cat, My.Answers srv cat := ⟨_, own_answers hs⟩

/-- **C77.** Exactly the tables of the database that the tool is connected to are listed, each once, and each is described by its
own statement, whatever is in the other databases. -/
theorem C77_tables_are_listed (srv : My.Server) (cat : My.Catalog) (hs : MyServer.Sound srv) (h : My.Answers srv cat) :
    cat.tables.Nodup ∧ (∀ n, n ∈ cat.tables ↔ ∃ r, Own srv r ∧ r.type ≠ lit "VIEW" ∧ r.name = n) ∧
      ∀ r, Own srv r → r.type ≠ lit "VIEW" → '`' ∉ r.name → cat.createTable r.name = r.createTable := by
  have hm : ∀ n, n ∈ cat.tables ↔ ∃ r, Own srv r ∧ r.type ≠ lit "VIEW" ∧ r.name = n := by
    intro n
    rw [h.tables.mem_iff, My.tablesQuery]
    simp only [List.mem_map, List.mem_filter, decide_eq_true_eq, Own, and_assoc]
  refine ⟨?_, hm, ?_⟩
  · refine h.tables.nodup_iff.mpr ?_
    refine List.Nodup.map_on (fun r hr q hq e => ?_) (hs.of_map.filter _)
    obtain ⟨h1, h2⟩ := List.mem_filter.mp hr
    obtain ⟨h3, h4⟩ := List.mem_filter.mp hq
    simp only [decide_eq_true_eq] at h2 h4
    exact own_unique hs ⟨h1, h2.1⟩ ⟨h3, h4.1⟩ e
  · exact fun r hr ht hn => createTableQuery_own hs hr (h.texts _ ((hm _).mpr ⟨r, hr, ht, rfl⟩) hn)

/-- **C77.** Exactly the triggers of the database are listed. -/
theorem C77_triggers_are_listed (srv : My.Server) (cat : My.Catalog) (h : My.Answers srv cat) (t : My.TriggerRow) :
    t ∈ cat.triggers ↔ (srv.database, t) ∈ srv.triggers := by
  rw [h.triggers.mem_iff, My.triggersQuery]
  simp only [List.mem_map, List.mem_filter, decide_eq_true_eq]
  constructor
  · rintro ⟨⟨d, t⟩, ⟨h1, rfl⟩, rfl⟩
    exact h1
  · exact fun h1 => ⟨_, ⟨h1, rfl⟩, rfl⟩

/-- **C77.** The names of the views that are listed are the ones of the views of the database; the query is that of a view with this
name, but maybe in another database. -/
theorem C77_names_of_views (srv : My.Server) (cat : My.Catalog) (h : My.Answers srv cat) :
    (∀ n, n ∈ cat.views.map (·.1) ↔ ∃ r, Own srv r ∧ r.type = lit "VIEW" ∧ r.name = n) ∧
      ∀ v ∈ cat.views, '\'' ∉ v.1 → '\\' ∉ v.1 → ∃ q ∈ srv.relations, q.type = lit "VIEW" ∧ (q.name, q.definition) = v := by
  constructor
  · intro n
    rw [h.views.mem_iff, My.viewNamesQuery]
    simp only [List.mem_map, List.mem_filter, decide_eq_true_eq, Own, and_assoc]
  · intro v hv h1 h2
    obtain ⟨q, hq, e⟩ := List.mem_map.mp (h.definitions v hv h1 h2)
    obtain ⟨h3, h4⟩ := List.mem_filter.mp hq
    simp only [decide_eq_true_eq] at h4
    exact ⟨q, h3, h4.1, by rw [h4.2, e]⟩

/-- **C77.** If no other database has a view with the name of one of this database, exactly the views of the database are listed,
each once and with its own query. -/
theorem C77_views_are_listed_partial (srv : My.Server) (cat : My.Catalog) (hs : MyServer.Sound srv) (hq : Quotable srv) (ha : ViewsApart srv)
    (h : My.Answers srv cat) : (cat.views.map (·.1)).Nodup ∧
      ∀ v, v ∈ cat.views ↔ ∃ r, Own srv r ∧ r.type = lit "VIEW" ∧ (r.name, r.definition) = v := by
  constructor
  · refine h.views.nodup_iff.mpr ?_
    refine List.Nodup.map_on (fun r hr q hq e => ?_) (hs.of_map.filter _)
    obtain ⟨h1, h2⟩ := List.mem_filter.mp hr
    obtain ⟨h3, h4⟩ := List.mem_filter.mp hq
    simp only [decide_eq_true_eq] at h2 h4
    exact own_unique hs ⟨h1, h2.1⟩ ⟨h3, h4.1⟩ e
  · intro v
    rw [← (answers_own hs hq ha h).views.mem_iff]
    simp only [ownCatalog, List.mem_map, List.mem_filter, decide_eq_true_eq, Own, and_assoc]

/-! ### Runs -/

/-- **C77.** What was exported can be applied: if the file is what `--export` has printed for a database, a run against a database with
the same content changes nothing, even if it is on another server with other databases and the rows come in another order. No other
database may have a view with the name of one of the views. -/
theorem C77_export_is_a_fixed_point_partial (fmtFloat : Str → Str) {σ τ : Type} (db : Db σ) (db' : Db τ) (srv srv' : My.Server)
    (cat : σ → My.Catalog) (cat' : τ → My.Catalog) (s : σ) (s' : τ) (hs : MyServer.Sound srv) (hs' : MyServer.Sound srv') (hq : Quotable srv)
    (hq' : Quotable srv') (hv : ViewsApart srv) (hv' : ViewsApart srv') (hd : SameDatabase srv srv') (ha : My.Answers srv (cat s))
    (ha' : My.Answers srv' (cat' s')) (ts : List Written.Table) (vs : List NewView) (gs : List NewTrigger)
    (h : MyDatabaseSaysAll (ownCatalog srv) ts vs gs) (ho : OrderlyTables .mysql ts) (hdv : ViewsDiffer vs) (hdg : TriggersDiffer gs)
    (fs fs' : Files) (o o' : Options) (hx : o.export_ = true) (hx' : o'.export_ = false) :
    ∃ text, run (Sql.env fmtFloat) .mysql (My.database db cat) fs o s = { events := [.print text], err := none, state := s } ∧
      (readFile fs' o'.sqlFile = .ok text →
        run (Sql.env fmtFloat) .mysql (My.database db' cat') fs' o' s' =
          { events := [.readFile, .print (lit "-- Nothing is modified --\n")], err := none, state := s' }) := by
  have l1 := answers_own hs hq hv ha
  have l2 := myLists_trans (own_alike hs hs' hd) (answers_own hs' hq' hv' ha')
  obtain ⟨ts', vs', gs', p1, p2, p3, h'⟩ := my_lists l1 h
  exact C74_mysql_export_is_a_fixed_point_in_any_order fmtFloat db db' cat cat' s s' (myLists_trans (myLists_symm l1) l2) ts' vs' gs' h'
    (orderly_perm ho p1) ((p2.map _).nodup_iff.mpr hdv) ((p3.map _).nodup_iff.mpr hdg) fs fs' o o' hx hx'

/-- **C77.** Whatever is desired, what else is on the server decides nothing: databases with the same content lead to scripts that differ in
the order of removals at most. -/
theorem C77_other_databases_partial (fmtFloat : Str → Str) {σ τ : Type} (db : Db σ) (db' : Db τ) (srv srv' : My.Server)
    (cat : σ → My.Catalog) (cat' : τ → My.Catalog) (s : σ) (s' : τ) (hs : MyServer.Sound srv) (hs' : MyServer.Sound srv') (hq : Quotable srv)
    (hq' : Quotable srv') (hv : ViewsApart srv) (hv' : ViewsApart srv') (hd : SameDatabase srv srv') (ha : My.Answers srv (cat s))
    (ha' : My.Answers srv' (cat' s')) (ts : List Written.Table) (vs : List NewView) (gs : List NewTrigger)
    (h : MyDatabaseSaysAll (ownCatalog srv) ts vs gs) (ho : OrderlyTables .mysql ts) (hdv : ViewsDiffer vs) (hdg : TriggersDiffer gs) :
    ∃ text text', dumpDDLs (My.database db cat) s = .ok text ∧ dumpDDLs (My.database db' cat') s' = .ok text' ∧
      ∀ (desired : Str) (des : List DDL) (script : List Str), parseDDLs (Sql.env fmtFloat) .mysql desired = .ok des → UniqueTables des →
        generateIdempotentDDLs (Sql.env fmtFloat) .mysql desired text = .ok script →
        ∃ script', generateIdempotentDDLs (Sql.env fmtFloat) .mysql desired text' = .ok script' ∧ SameButRemovals .mysql script script' := by
  have l1 := answers_own hs hq hv ha
  have l2 := myLists_trans (own_alike hs hs' hd) (answers_own hs' hq' hv' ha')
  obtain ⟨ts', vs', gs', p1, p2, p3, h'⟩ := my_lists l1 h
  exact C75_mysql_servers fmtFloat db db' cat cat' s s' (myLists_trans (myLists_symm l1) l2) ts' vs' gs' h'
    (orderly_perm ho p1) ((p2.map _).nodup_iff.mpr hdv) ((p3.map _).nodup_iff.mpr hdg)

/-! ### A view of another database -/

/-- Two databases with a view `v`; the tool is connected to `app`. -/
def exTwoDatabases : My.Server where
  database := lit "app"
  relations :=
    [{ database := lit "app", name := lit "v", type := lit "VIEW", definition := txt "select `app`.`t`.`a` AS `x` from `app`.`t`" },
      { database := lit "old", name := lit "v", type := lit "VIEW", definition := txt "select `old`.`t`.`b` AS `x` from `old`.`t`" }]
  triggers := []

/-- What the tool may get to know. -/
def exWrongView : My.Catalog where
  tables := []
  createTable _ := []
  views := [(lit "v", txt "select `old`.`t`.`b` AS `x` from `old`.`t`")]
  triggers := []

theorem exTwoDatabases_sound : MyServer.Sound exTwoDatabases := by unfold MyServer.Sound; decide +kernel

theorem exTwoDatabases_answers : My.Answers exTwoDatabases exWrongView where
  tables := by rw [show My.tablesQuery exTwoDatabases = [] by decide +kernel]; exact .refl _
  texts n hn := by cases hn
  views := by rw [show My.viewNamesQuery exTwoDatabases = [lit "v"] by decide +kernel]; exact .refl _
  definitions v hv _ _ := by
    cases List.mem_singleton.mp hv
    rw [show My.definitionQuery exTwoDatabases (lit "v") = [txt "select `app`.`t`.`a` AS `x` from `app`.`t`",
      txt "select `old`.`t`.`b` AS `x` from `old`.`t`"] by decide +kernel]
    simp
  triggers := .refl _

/-- **C77.** Without the condition on other databases the property is false: the query of the view in the other database is taken
for that of the view in this one. If the file has what is in the database, the tool wants to replace the view, in every run; if the
file has what is in the other database, the tool changes nothing although the view is another one. -/
theorem C77_view_of_another_database {σ : Type} (db : Db σ) (s : σ) :
    ∃ (srv : My.Server) (cat : My.Catalog) (own other : Str), MyServer.Sound srv ∧ Quotable srv ∧ My.Answers srv cat ∧
      srv.relations.any (fun r => r.database = srv.database ∧ r.name = lit "v" ∧ r.definition = own) = true ∧
      ∃ text, dumpDDLs (My.database db fun _ : σ => cat) s = .ok text ∧
        generateIdempotentDDLs (Sql.env id) .mysql (lit "CREATE VIEW v AS " ++ own) text = .ok [lit "CREATE OR REPLACE VIEW `v` AS select app.t.a as x from app.t"] ∧
        own ≠ other ∧ generateIdempotentDDLs (Sql.env id) .mysql (lit "CREATE VIEW v AS " ++ other) text = .ok [] := by
  refine ⟨exTwoDatabases, exWrongView, txt "select `app`.`t`.`a` AS `x` from `app`.`t`", txt "select `old`.`t`.`b` AS `x` from `old`.`t`",
    exTwoDatabases_sound, ?_, exTwoDatabases_answers, by decide +kernel,
    txt "CREATE VIEW v AS select `old`.`t`.`b` AS `x` from `old`.`t`", ?_, ok_of_check (by decide +kernel), by decide +kernel, ok_of_check (by decide +kernel)⟩
  · rintro r ⟨hr, hd⟩
    simp only [exTwoDatabases, List.mem_cons, List.not_mem_nil, or_false] at hr
    rcases hr with rfl | rfl <;> decide
  · exact congrArg Except.ok (show join (lit ";\n\n") ([] ++ exWrongView.views.map My.viewText ++ exWrongView.triggers.map My.TriggerRow.text) = _ by
      decide +kernel)

/-! ### A case -/

/-- A server with the database of C69 and another one that has a table and a trigger of the same names. -/
def exBusyServer : My.Server where
  database := lit "db"
  relations :=
    [{ database := lit "old", name := lit "t", type := lit "BASE TABLE", createTable := txt "CREATE TABLE `t` (\n  `b` text\n)" },
      { database := lit "db", name := lit "v", type := lit "VIEW", definition := txt "select `db`.`t`.`a` AS `x` from `db`.`t`" },
      { database := lit "old", name := lit "w", type := lit "VIEW", definition := txt "select `old`.`t`.`b` AS `x` from `old`.`t`" },
      { database := lit "db", name := lit "t", type := lit "BASE TABLE", createTable := txt "CREATE TABLE `t` (\n  `a` integer\n)" }]
  triggers :=
    [(lit "db", { trigger := lit "g", event := lit "UPDATE", table := lit "t", statement := txt "UPDATE u\n SET a = 'New User'", timing := lit "AFTER" }),
      (lit "old", { trigger := lit "g", event := lit "UPDATE", table := lit "t", statement := txt "UPDATE u\n SET a = 'No User'", timing := lit "AFTER" })]

theorem exBusyServer_sound : MyServer.Sound exBusyServer := by unfold MyServer.Sound; decide +kernel

theorem exBusyServer_quotable : Quotable exBusyServer := by
  rintro r ⟨hr, -⟩
  simp only [exBusyServer, List.mem_cons, List.not_mem_nil, or_false] at hr
  rcases hr with rfl | rfl | rfl | rfl <;> decide

theorem exBusyServer_apart : ViewsApart exBusyServer := by
  rintro r ⟨hr, hd⟩ ht q hq hv hn
  simp only [exBusyServer, List.mem_cons, List.not_mem_nil, or_false] at hr hq
  rcases hr with rfl | rfl | rfl | rfl <;> rcases hq with rfl | rfl | rfl | rfl <;> revert hd ht hv hn <;> decide

theorem exBusyServer_says : MyDatabaseSaysAll (ownCatalog exBusyServer) [exPlainTable] [exPlainView] [exSmallTrigger none (lit "u") (lit "New User")] where
  rest :=
    { tables := by
        have h := exMyTriggers_says.rest.tables
        rw [show (ownCatalog exBusyServer).tables = [lit "t"] by decide +kernel]
        refine .cons ?_ .nil
        change TextStands .mysql ((ownCatalog exBusyServer).createTable (lit "t")) _
        rw [show (ownCatalog exBusyServer).createTable (lit "t") = exMyTriggers.createTable (lit "t") by decide +kernel]
        cases h with
        | cons h _ => exact h
      views := by
        have h := exMyTriggers_says.rest.views
        change List.Forall₂ _ (ownCatalog exBusyServer).views _
        rw [show (ownCatalog exBusyServer).views = exMyTriggers.views by decide +kernel]
        exact h
      triggers := rfl }
  triggers := by
    have h := exMyTriggers_says.triggers
    rw [show (ownCatalog exBusyServer).triggers = exMyTriggers.triggers from rfl]
    exact h

example (fs fs' : Files) (o o' : Options) (hx : o.export_ = true) (hx' : o'.export_ = false) :
    ∃ text, run (Sql.env id) .mysql (My.database exServer fun _ => ownCatalog exBusyServer) fs o () = { events := [.print text], err := none, state := () } ∧
      (readFile fs' o'.sqlFile = .ok text → run (Sql.env id) .mysql (My.database exServer fun _ => ownCatalog exBusyServer) fs' o' () =
        { events := [.readFile, .print (lit "-- Nothing is modified --\n")], err := none, state := () }) :=
  C77_export_is_a_fixed_point_partial id exServer exServer exBusyServer exBusyServer _ _ () () exBusyServer_sound exBusyServer_sound
    exBusyServer_quotable exBusyServer_quotable exBusyServer_apart exBusyServer_apart ⟨.refl _, .refl _⟩ (own_answers exBusyServer_sound)
    (own_answers exBusyServer_sound) _ _ _ exBusyServer_says (exPlainTable_orderly _ (.inl rfl)) (by unfold ViewsDiffer; decide)
    (by unfold TriggersDiffer; decide) fs fs' o o' hx hx'

end Sqldef
