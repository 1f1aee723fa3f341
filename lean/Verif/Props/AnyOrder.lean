import Verif.Proofs.AnyOrder
import Verif.Props.ViewExports
/-
C74: the order in which a MySQL server or a SQLite database lists its tables, views and triggers does not matter, and neither
does the order in which a file has them.
-/
namespace Sqldef
open Spec Written Dumped

/-! ### MySQL -/

/-- **C74.** A file with the tables, the views and the triggers of a MySQL database, in any order and in whatever layout,
changes nothing. -/
theorem C74_mysql_statements_in_any_order (fmtFloat : Str → Str) {σ : Type} (db : Db σ) (cat : σ → My.Catalog) (s : σ)
    (ts : List Written.Table) (vs : List NewView) (gs : List NewTrigger) (h : MyDatabaseSaysAll (cat s) ts vs gs) (ho : OrderlyTables .mysql ts)
    (hd : ViewsDiffer vs) (hg : TriggersDiffer gs)
    (fs : Files) (o : Options) (he : o.export_ = false) (file : Str) (hr : readFile fs o.sqlFile = .ok file) (ss : List Written.Statement)
    (hp : ss.Perm (ts.map (fun t => .sentence (.table t)) ++ vs.map .view ++ gs.map .trigger)) (hf : Consists .mysql file ss) :
    run (Sql.env fmtFloat) .mysql (My.database db cat) fs o s =
      { events := [.readFile, .print (lit "-- Nothing is modified --\n")], err := none, state := s } := by
  obtain ⟨text, h1, h2, -, -⟩ := my_everything db cat s h
  have hp' : ss.Perm (everything (ts.map Sentence.table) vs gs) := by
    unfold everything
    rw [List.map_map]
    exact hp
  exact run_reordered fmtFloat h1 h2 (everything_clear (orderly_clear ho) (myViews_clear h.rest.views) (myTriggers_clear h.triggers))
    (fun _ hx => everything_normal hx (fun _ hx => tables_normal (by decide) ho hx) hd hg) he hr hf hp'
    (fun _ hx => wellFormed_free (fun x hm => everything_free ts vs gs x (hp'.mem_iff.mp hm)) hx)

/-- **C74.** What was exported from a MySQL server can be applied: a run against a server with the same tables, views and
triggers changes nothing, even if it lists them in another order. -/
theorem C74_mysql_export_is_a_fixed_point_in_any_order (fmtFloat : Str → Str) {σ τ : Type} (db : Db σ) (db' : Db τ) (cat : σ → My.Catalog)
    (cat' : τ → My.Catalog) (s : σ) (s' : τ) (hl : MyListsTheSame (cat s) (cat' s')) (ts : List Written.Table) (vs : List NewView)
    (gs : List NewTrigger) (h : MyDatabaseSaysAll (cat s) ts vs gs) (ho : OrderlyTables .mysql ts) (hd : ViewsDiffer vs) (hg : TriggersDiffer gs)
    (fs fs' : Files) (o o' : Options) (hx : o.export_ = true) (hx' : o'.export_ = false) :
    ∃ text, run (Sql.env fmtFloat) .mysql (My.database db cat) fs o s = { events := [.print text], err := none, state := s } ∧
      (readFile fs' o'.sqlFile = .ok text →
        run (Sql.env fmtFloat) .mysql (My.database db' cat') fs' o' s' =
          { events := [.readFile, .print (lit "-- Nothing is modified --\n")], err := none, state := s' }) := by
  obtain ⟨text, h1, h2, h3, h4⟩ := my_everything db cat s h
  obtain ⟨ts', vs', gs', p1, p2, p3, h'⟩ := my_lists hl h
  refine ⟨if text = [] then lit "-- No table exists --\n" else text ++ lit ";\n", by simp only [run, h1, hx]; rfl, fun hr => ?_⟩
  refine C74_mysql_statements_in_any_order fmtFloat db' cat' s' ts' vs' gs' h' (orderly_perm ho p1) ((p2.map _).nodup_iff.mpr hd)
    ((p3.map _).nodup_iff.mpr hg) fs' o' hx' _ hr (everything (ts.map Sentence.table) vs gs) ?_ ?_
  · have := (everything_turned p1 p2 p3).symm
    unfold everything at this ⊢
    rwa [List.map_map (l := ts')] at this
  · split
    · rename_i he
      rw [h4 he]
      unfold Consists
      rw [show statementTexts (lit "-- No table exists --\n") = [] by decide +kernel]
      exact .nil
    · exact h3

/-! ### SQLite -/

/-- **C74.** A file with the tables and the views of a SQLite database, in any order and in whatever layout, changes
nothing. -/
theorem C74_sqlite_statements_in_any_order (fmtFloat : Str → Str) {σ : Type} (db : Db σ) (master : σ → List Lite.Object) (s : σ)
    (ts : List Written.Table) (vs : List NewView) (h : LiteDatabaseSays (master s) ts vs) (ho : OrderlyTables .sqlite3 ts) (hd : ViewsDiffer vs)
    (fs : Files) (o : Options) (he : o.export_ = false) (file : Str) (hr : readFile fs o.sqlFile = .ok file) (ss : List Written.Statement)
    (hp : ss.Perm (ts.map (fun t => .sentence (.table t)) ++ vs.map .view)) (hf : Consists .sqlite3 file ss) :
    run (Sql.env fmtFloat) .sqlite3 (Lite.database db master) fs o s =
      { events := [.readFile, .print (lit "-- Nothing is modified --\n")], err := none, state := s } := by
  obtain ⟨texts, h1, h2⟩ := lite_all db master s h
  have hp' : ss.Perm (tablesAndViews ts vs) := by
    unfold tablesAndViews
    rw [List.map_map]
    exact hp
  exact run_reordered fmtFloat h1 (consists_joined h2).1 (mixed_clear (orderly_clear ho) (liteViews_clear h.views))
    (fun _ hx => mixed_normal hx (fun _ hx => tables_normal (by decide) ho hx) hd) he hr hf hp'
    (fun _ hx => wellFormed_free (fun x hm => everything_free ts vs [] x (by simpa [everything, tablesAndViews] using hp'.mem_iff.mp hm)) hx)

/-- **C74.** What was exported from a SQLite database can be applied to one with the same rows in another order: nothing is
changed. -/
theorem C74_sqlite_export_is_a_fixed_point_in_any_order (fmtFloat : Str → Str) {σ τ : Type} (db : Db σ) (db' : Db τ)
    (master : σ → List Lite.Object) (master' : τ → List Lite.Object) (s : σ) (s' : τ) (hl : LiteListsTheSame (master s) (master' s'))
    (ts : List Written.Table) (vs : List NewView) (h : LiteDatabaseSays (master s) ts vs) (ho : OrderlyTables .sqlite3 ts) (hd : ViewsDiffer vs)
    (fs fs' : Files) (o o' : Options) (hx : o.export_ = true) (hx' : o'.export_ = false) :
    ∃ text, run (Sql.env fmtFloat) .sqlite3 (Lite.database db master) fs o s = { events := [.print text], err := none, state := s } ∧
      (readFile fs' o'.sqlFile = .ok text →
        run (Sql.env fmtFloat) .sqlite3 (Lite.database db' master') fs' o' s' =
          { events := [.readFile, .print (lit "-- Nothing is modified --\n")], err := none, state := s' }) := by
  obtain ⟨texts, h1, h2⟩ := lite_all db master s h
  obtain ⟨-, c2, c3⟩ := consists_joined h2
  obtain ⟨ts', vs', p1, p2, h'⟩ := lite_lists hl h
  refine ⟨if join (lit ";\n\n") texts = [] then lit "-- No table exists --\n" else join (lit ";\n\n") texts ++ lit ";\n",
    by simp only [run, h1, hx]; rfl, fun hr => ?_⟩
  refine C74_sqlite_statements_in_any_order fmtFloat db' master' s' ts' vs' h' (orderly_perm ho p1) ((p2.map _).nodup_iff.mpr hd)
    fs' o' hx' _ hr (tablesAndViews ts vs) ?_ ?_
  · unfold tablesAndViews
    rw [List.map_map]
    exact ((p1.map _).append (p2.map _)).symm
  · split
    · rename_i he
      rw [c3 he]
      unfold Consists
      rw [show statementTexts (lit "-- No table exists --\n") = [] by decide +kernel]
      exact .nil
    · exact c2

/-! ### Examples -/

def exSecondTable : Written.Table := { name := { name := lit "u" }, first := { name := lit "b", type := .integer "integer" none false false } }

theorem exTwoTables_orderly : OrderlyTables .mysql [exPlainTable, exSecondTable] where
  clear := by
    simp [exPlainTable, exSecondTable, Sentence.Clear, Table.Clear, Col.Clear, Ty.Known, integerWords, clearOptions, Sentence.InRange, Sentence.indexColumns]
  names := by decide
  tables := by
    intro t ht
    rcases List.mem_cons.mp ht with rfl | ht
    · exact ⟨by decide +kernel, by decide +kernel, by decide +kernel, by decide +kernel, by decide +kernel, fun _ => by decide +kernel⟩
    · rw [List.mem_singleton.mp ht]
      exact ⟨by decide +kernel, by decide +kernel, by decide +kernel, by decide +kernel, by decide +kernel, fun _ => by decide +kernel⟩

/-- Two tables and a view. -/
def exTwoTables : My.Catalog where
  tables := [lit "t", lit "u"]
  createTable := fun n => if n = lit "t" then txt "CREATE TABLE `t` (\n  `a` integer\n)" else txt "CREATE TABLE `u` (\n  `b` integer\n)"
  views := exMyViews.views
  triggers := []

theorem exTwoTables_says : MyDatabaseSaysAll exTwoTables [exPlainTable, exSecondTable] [exPlainView] [] where
  rest :=
    { tables := by
        have h := exMyViews_says.tables
        unfold exMyViews at h
        cases h with
        | cons h _ =>
          refine .cons h (.cons ⟨layout_of_test [("", "CREATE"), (" ", "TABLE"), (" ", "`u`"), (" ", "("), ("\n  ", "`b`"), (" ", "integer"), ("\n", ")")]
            (by decide +kernel), by decide +kernel, by unfold NoComment; decide +kernel, by decide +kernel⟩ .nil)
      views := exMyViews_says.views
      triggers := rfl }
  triggers := .nil

/-- The server lists the tables in the opposite order: what was exported can be applied. -/
example (fs fs' : Files) (o o' : Options) (hx : o.export_ = true) (hx' : o'.export_ = false) :
    ∃ text, run (Sql.env id) .mysql (My.database exServer fun _ => exTwoTables) fs o () = { events := [.print text], err := none, state := () } ∧
      (readFile fs' o'.sqlFile = .ok text →
        run (Sql.env id) .mysql (My.database exServer fun _ => { exTwoTables with tables := [lit "u", lit "t"] }) fs' o' () =
          { events := [.readFile, .print (lit "-- Nothing is modified --\n")], err := none, state := () }) :=
  C74_mysql_export_is_a_fixed_point_in_any_order id exServer exServer _ (fun _ => { exTwoTables with tables := [lit "u", lit "t"] }) () ()
    ⟨.swap _ _ _, fun _ _ => rfl, .refl _, .refl _⟩ _ _ _ exTwoTables_says exTwoTables_orderly (by unfold ViewsDiffer; decide)
    (by unfold TriggersDiffer; decide) fs fs' o o' hx hx'

/-- The row of the view comes before the one of the table: what was exported can be applied. -/
example (fs fs' : Files) (o o' : Options) (hx : o.export_ = true) (hx' : o'.export_ = false) :
    ∃ text, run (Sql.env id) .sqlite3 (Lite.database exServer fun _ => exLiteViews) fs o () = { events := [.print text], err := none, state := () } ∧
      (readFile fs' o'.sqlFile = .ok text → run (Sql.env id) .sqlite3 (Lite.database exServer fun _ => exLiteViews.reverse) fs' o' () =
        { events := [.readFile, .print (lit "-- Nothing is modified --\n")], err := none, state := () }) := by
  refine C74_sqlite_export_is_a_fixed_point_in_any_order id exServer exServer _ (fun _ => exLiteViews.reverse) () () ⟨(List.reverse_perm _).symm, ?_⟩ _ _
    exLiteViews_says (exPlainTable_orderly _ (.inr rfl)) (by unfold ViewsDiffer; decide) fs fs' o o' hx hx'
  intro o ho ht
  simp only [exLiteViews, List.reverse_cons, List.reverse_nil, List.nil_append, List.cons_append, List.mem_cons, List.not_mem_nil, or_false] at ho
  rcases ho with rfl | rfl
  · exact absurd ht (by decide)
  · rfl

end Sqldef
