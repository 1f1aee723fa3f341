import Verif.Proofs.MsObjectDump
import Verif.Props.MsAdapter
import Verif.Props.Triggers
/-
C70: exports of SQL Server databases with views and triggers can be applied.
-/
namespace Sqldef
open Spec Written Dumped

/-! ### C70: SQL Server databases with views and triggers -/

/-- **C70.** The dump of a SQL Server database is read without an error, as its tables with their indexes, its views and its
triggers. -/
theorem C70_mssql_dump_is_understood (fmtFloat : Str → Str) {σ : Type} (db : Db σ) (cat : σ → Ms.Catalog) (ha : MsAdapter db cat) (s : σ)
    (ds : List MsDescribed) (vs : List NewView) (gs : List NewTrigger) (h : MsDatabaseSays (cat s) ds vs gs) :
    ∃ text defs views triggers, dumpDDLs db s = .ok text ∧
      parseDDLs (Sql.env fmtFloat) .mssql text = .ok (defs ++ views ++ triggers) ∧
      List.Forall₂ (fun x d => SaysTheSame .mssql d.statement (Sentence.meaning x) d ∧ x.Kind d) (ds.flatMap MsDescribed.sentences) defs ∧
      List.Forall₂ (fun v d => d = .view { statement := d.statement, name := toLower v.name.name, definition := v.query.text }) vs views ∧
      List.Forall₂ (fun g d => d = .trigger (NewTrigger.defined g d.statement)) gs triggers := by
  obtain ⟨text, h1, h2, -, -⟩ := ms_everything ha s h
  obtain ⟨ds', h3, h4, -⟩ := C67_file_is_understood fmtFloat .mssql text _ h2
    (everything_clear (msAll_clear h.tables) (msViews_clear h.views) (msTriggers_clear h.triggers))
  obtain ⟨both, triggers, g1, g2, rfl⟩ := forall₂_split h4
  obtain ⟨defs, views, g3, g4, rfl⟩ := forall₂_split g1
  exact ⟨text, defs, views, triggers, h1, h3, forall₂_unmap g3, forall₂_unmap g4, forall₂_unmap g2⟩

/-- **C70.** A file with the tables, the indexes, the views and the triggers of a SQL Server database, written in whatever
layout, changes nothing. -/
theorem C70_described_schema_changes_nothing (fmtFloat : Str → Str) {σ : Type} (db : Db σ) (cat : σ → Ms.Catalog) (ha : MsAdapter db cat) (s : σ)
    (ds : List MsDescribed) (vs : List NewView) (gs : List NewTrigger) (h : MsDatabaseSays (cat s) ds vs gs)
    (hn : ((cat s).tables.map (·.2)).Nodup) (ho : ∀ t ∈ (cat s).tables, MsOrderly (cat s) t.1 t.2) (hd : ViewsDiffer vs) (hg : TriggersDiffer gs)
    (fs : Files) (o : Options) (he : o.export_ = false) (file : Str) (hr : readFile fs o.sqlFile = .ok file)
    (hf : Consists .mssql file ((ds.flatMap MsDescribed.sentences).map .sentence ++ vs.map .view ++ gs.map .trigger)) :
    run (Sql.env fmtFloat) .mssql db fs o s =
      { events := [.readFile, .print (lit "-- Nothing is modified --\n")], err := none, state := s } := by
  obtain ⟨text, h1, h2, -, -⟩ := ms_everything ha s h
  exact run_everything fmtFloat (fun _ hx => msDescribed_normal hn (forall₂_with h.tables ho) hx) hd hg (msAll_clear h.tables) (msViews_clear h.views)
    (msTriggers_clear h.triggers) h1 h2 he hr hf

/-- **C70.** Applying an export of a SQL Server database with views and triggers changes nothing. -/
theorem C70_export_is_a_fixed_point (fmtFloat : Str → Str) {σ : Type} (db : Db σ) (cat : σ → Ms.Catalog) (ha : MsAdapter db cat) (s : σ)
    (ds : List MsDescribed) (vs : List NewView) (gs : List NewTrigger) (h : MsDatabaseSays (cat s) ds vs gs)
    (hn : ((cat s).tables.map (·.2)).Nodup) (ho : ∀ t ∈ (cat s).tables, MsOrderly (cat s) t.1 t.2) (hd : ViewsDiffer vs) (hg : TriggersDiffer gs)
    (fs fs' : Files) (o o' : Options) (hx : o.export_ = true) (hx' : o'.export_ = false) :
    ∃ text, run (Sql.env fmtFloat) .mssql db fs o s = { events := [.print text], err := none, state := s } ∧
      (readFile fs' o'.sqlFile = .ok text →
        run (Sql.env fmtFloat) .mssql db fs' o' s =
          { events := [.readFile, .print (lit "-- Nothing is modified --\n")], err := none, state := s }) := by
  obtain ⟨text, h1, h2, h3, h4⟩ := ms_everything ha s h
  refine ⟨if text = [] then lit "-- No table exists --\n" else text ++ lit ";\n",
    by simp only [run, h1, hx]; rfl, fun hr => ?_⟩
  refine C70_described_schema_changes_nothing fmtFloat db cat ha s ds vs gs h hn ho hd hg fs' o' hx' _ hr ?_
  split
  · rename_i he
    have e := h4 he
    unfold everything at e
    rw [e]
    unfold Consists
    rw [show statementTexts (lit "-- No table exists --\n") = [] by decide +kernel]
    exact .nil
  · exact h3

/-! ### Line breaks -/

/-- **C70, a limit.** Line breaks in the definitions of views do not reach the rest of the tool, and nothing takes their
place: what is dumped is the same for definitions that are the same after their line breaks are taken away
(/repo/adapter/mssql/mssql.go:433-436). -/
theorem C70_line_breaks_are_lost (cat : Ms.Catalog) (vs ws : List Str) (h : vs.map (·.filter (· ≠ '\n')) = ws.map (·.filter (· ≠ '\n'))) :
    Ms.views { cat with views := vs } = Ms.views { cat with views := ws } := by
  have e : ∀ v, viewText v = viewText (v.filter (· ≠ '\n')) := fun v => by
    unfold viewText
    have k : ∀ c, decide (c ≠ '\n') = false → isSpace c = true := fun c hc => by
      have : c = '\n' := by simpa using hc
      rw [this]
      decide
    rw [trimSpace_filter k, trimSpace_filter k, List.filter_filter]
    simp
  change vs.map viewText = ws.map viewText
  have f : ∀ l : List Str, l.map viewText = (l.map (·.filter (· ≠ '\n'))).map viewText := fun l => by
    rw [List.map_map]
    exact List.map_congr_left fun v _ => e v
  rw [f, h, ← f]

/-- A database with the table `t` and a view. -/
def exMsOneView (definition : String) : Ms.Catalog :=
  { oneMsTable [{ name := lit "a", dataType := lit "int", length := lit "4", nullable := true }] [] [] [] with views := [txt definition] }

/-- **C70, a limit.** A view with a line break between `AS` and `SELECT`, and no space beside it, makes every run fail. -/
theorem C70_broken_line_cannot_be_read :
    ∃ text, dumpDDLs (msDatabase (exMsOneView "CREATE VIEW v AS\nSELECT a FROM t")) () = .ok text ∧
      ∀ desired, ∃ e, generateIdempotentDDLs (Sql.env id) .mssql desired text = .error e :=
  ⟨txt "CREATE TABLE dbo.t (\n    a int\n);\n\nCREATE VIEW v ASSELECT a FROM t", dumped_of_check (by decide +kernel),
    unreadable (by decide +kernel)⟩

/-- **C70, a limit.** A line break between a column and `FROM` makes another view of it, so that a schema that has been
applied to the letter is not understood to be there: the view is dropped and created again, whenever the tool is run. -/
theorem C70_broken_line_is_created_forever :
    ∃ text, dumpDDLs (msDatabase (exMsOneView "CREATE VIEW v AS SELECT a\nFROM t")) () = .ok text ∧
      generateIdempotentDDLs (Sql.env id) .mssql (txt "CREATE TABLE t (a int); CREATE VIEW v AS SELECT a\nFROM t") text =
        .ok [txt "DROP VIEW [dbo].[v]", txt "CREATE VIEW [dbo].[v] AS select a from t"] :=
  ⟨txt "CREATE TABLE dbo.t (\n    a int\n);\n\nCREATE VIEW v AS SELECT aFROM t", dumped_of_check (by decide +kernel),
    ok_of_check (by decide +kernel)⟩

/-! ### A database -/

def exMsView : NewView :=
  { name := { schema := some (lit "dbo"), name := lit "adults" },
    query :=
      { first := .value (.column (lit "id")) none,
        rest := [.value (.column (lit "name")) (some { name := lit "N" })],
        sources := some (.table { schema := some (lit "dbo"), name := lit "users" } none, []),
        condition := some (.compare .gt (.column (lit "age")) (.integer (lit "18"))) } }

def exMsObjects : Ms.Catalog :=
  { exMsCatalog with
    views := [txt "\n CREATE VIEW dbo.adults AS\n SELECT id, name AS N\n   FROM [dbo].[users]\n  WHERE age > 18;\n"]
    triggers := [txt "CREATE TRIGGER ti ON dbo.users\nAFTER DELETE AS\nDELETE FROM posts WHERE owner = 1\nUPDATE log l SET a = 2, l.k = 3 WHERE id = 4;"] }

theorem exMsObjects_says : MsDatabaseSays exMsObjects exMsDescribed [exMsView] [exMsTrigger] where
  tables := .cons ⟨exMsUsers_says.bare, exMsUsers_says.ref, exMsUsers_says.items, exMsUsers_says.index, exMsUsers_says.fresh, exMsUsers_says.options⟩
    (.cons ⟨exMsPosts_says.bare, exMsPosts_says.ref, exMsPosts_says.items, exMsPosts_says.index, exMsPosts_says.fresh, exMsPosts_says.options⟩ .nil)
  views := .cons
    { query := by
        have g : ∀ n ∈ [lit "users", lit "id", lit "name", lit "N", lit "age", lit "dbo"], GoodName n := by
          have h : ∀ n ∈ [lit "users", lit "id", lit "name", lit "N", lit "age", lit "dbo"], n ≠ [] ∧ ¬ lit "@@" <+: n ∧ ∀ c ∈ n, c.toNat < 65536 := by decide
          exact h
        have j : GoodInt (lit "18") := ⟨lit "18", by decide, by decide, .inl rfl⟩
        simp [exMsView, Query.Clear, Picked.Clear, ClearEx, GoodAlias, Source.Clear, Source.Proper, Source.depth, Ex.Proper, Ex.level, Ex.depth, g, j]
      text := by
        refine ⟨txt "CREATE VIEW dbo.adults AS\n SELECT id, name AS N\n   FROM [dbo].[users]\n  WHERE age > 18", .inr (by decide +kernel), ?_, by decide +kernel, by decide +kernel⟩
        exact tidy_of_test [("", "CREATE"), (" ", "VIEW"), (" ", "dbo"), ("", "."), ("", "adults"), (" ", "AS"), ("\n ", "SELECT"), (" ", "id"), ("", ","), (" ", "name"), (" ", "AS"), (" ", "N"),
          ("\n   ", "FROM"), (" ", "[dbo]"), ("", "."), ("", "[users]"), ("\n  ", "WHERE"), (" ", "age"), (" ", ">"), (" ", "18")] (by decide +kernel) } .nil
  triggers := .cons
    { body := exMsTrigger_clear
      text := by
        refine ⟨txt "CREATE TRIGGER ti ON dbo.users\nAFTER DELETE AS\nDELETE FROM posts WHERE owner = 1\nUPDATE log l SET a = 2, l.k = 3 WHERE id = 4", .inr (by decide +kernel), ?_,
          by decide +kernel, by unfold NoComment; decide +kernel, by decide +kernel⟩
        exact layout_of_test [("", "CREATE"), (" ", "TRIGGER"), (" ", "ti"), (" ", "ON"), (" ", "dbo"), ("", "."), ("", "users"), ("\n", "AFTER"), (" ", "DELETE"), (" ", "AS"),
          ("\n", "DELETE"), (" ", "FROM"), (" ", "posts"), (" ", "WHERE"), (" ", "owner"), (" ", "="), (" ", "1"),
          ("\n", "UPDATE"), (" ", "log"), (" ", "l"), (" ", "SET"), (" ", "a"), (" ", "="), (" ", "2"), ("", ","), (" ", "l"), ("", "."), ("", "k"), (" ", "="), (" ", "3"),
          (" ", "WHERE"), (" ", "id"), (" ", "="), (" ", "4")] (by decide +kernel) } .nil

/-- The database of C63 with a view and a trigger: what is exported can be applied. -/
example (fs fs' : Files) (o o' : Options) (hx : o.export_ = true) (hx' : o'.export_ = false) :
    ∃ text, run (Sql.env id) .mssql (msDatabase exMsObjects) fs o () = { events := [.print text], err := none, state := () } ∧
      (readFile fs' o'.sqlFile = .ok text →
        run (Sql.env id) .mssql (msDatabase exMsObjects) fs' o' () =
          { events := [.readFile, .print (lit "-- Nothing is modified --\n")], err := none, state := () }) :=
  C70_export_is_a_fixed_point id _ _ (msDatabase_adapter exMsObjects) () _ _ _ exMsObjects_says (by decide)
    (by
      intro t ht
      change t ∈ [(lit "dbo", lit "users"), (lit "app", lit "posts")] at ht
      simp only [List.mem_cons, List.not_mem_nil, or_false] at ht
      rcases ht with rfl | rfl <;> exact ⟨by decide, by decide, by decide⟩)
    (by unfold ViewsDiffer; decide) (by unfold TriggersDiffer; decide) fs fs' o o' hx hx'

/-- How the view is exported. -/
example : Ms.views exMsObjects = [txt "CREATE VIEW dbo.adults AS SELECT id, name AS N FROM [dbo].[users] WHERE age > 18"] := by decide +kernel

/-- Line breaks instead of spaces: these two views are the same to the tool. -/
example : Ms.views (exMsOneView "CREATE VIEW v AS SELECT a\nFROM t") = Ms.views (exMsOneView "CREATE VIEW v AS SELECT aFROM t") :=
  C70_line_breaks_are_lost _ _ _ (by decide +kernel)

end Sqldef
