import Verif.Proofs.LiteSkip
import Verif.Props.LiteViews
import Verif.Props.ViewPlaces
/-
C81: with `--skip-drop` everything stays and what is missing is created.
-/
namespace Sqldef
open Spec Written Token Dumped

/-- **C81**, exactly: in the setting of C79 a run with `--skip-drop` that ends without an error keeps all tables and views, and creates those of the
missing ones whose text in the file does not contain the letters `DROP`. -/
theorem C81_what_is_there (fmtFloat : Str → Str) {σ : Type} (db : Db σ) (master : σ → List Lite.Object)
    (hdb : LiteKeeps db master) (s : σ) (ts us : List Written.Table) (vs ws : List NewView) (hu : LiteHolds (master s) us ws)
    (hou : OrderlyTables .sqlite3 us) (hot : OrderlyTables .sqlite3 ts) (how : OrderlyViews ws) (hov : OrderlyViews vs)
    (hs : ∀ u ∈ us, ∀ t ∈ ts, u.name.name = t.name.name → u = t) (hs' : ∀ w ∈ ws, ∀ v ∈ vs, w.name.name = v.name.name → w = v)
    (hx : ∀ t ∈ ts ++ us, ∀ v ∈ vs ++ ws, t.name.name ≠ v.name.name)
    (hn : ∀ t ∈ ts, t.ifNotExists = false ∧ t.name.schema = none ∧ ¬ Reserved t.name.name)
    (fs : Files) (o : Options) (he : o.export_ = false) (hdry : o.dryRun = false) (hskip : o.skipDrop = true) (file : Str)
    (hr : readFile fs o.sqlFile = .ok file)
    (hf : Consists .sqlite3 file (ts.map (fun t => .sentence (.table t)) ++ vs.map .view))
    (hc : ∀ x ∈ statementTexts file, NoComment x)
    (herr : (run (Sql.env fmtFloat) .sqlite3 (Lite.database db master) fs o s).err = none) :
    ∃ xs ys, statementTexts file = xs ++ ys ∧ xs.length = ts.length ∧ ys.length = vs.length ∧
      LiteHolds (master (run (Sql.env fmtFloat) .sqlite3 (Lite.database db master) fs o s).state)
        (us ++ ((List.zip xs ts).filter fun p => p.2.name.name ∉ us.map (·.name.name) ∧ contains (lit "DROP") p.1 = false).map (·.2))
        (ws ++ ((List.zip ys vs).filter fun p => p.2.name.name ∉ ws.map (·.name.name) ∧ contains (lit "DROP") p.1 = false).map (·.2)) :=
  lite_views_skipping fmtFloat hdb hu hou hot how hov hs hs' hx hn he hdry hskip hr
    (by unfold tablesAndViews; rw [List.map_map]; exact hf) hc herr

theorem kept_all {α : Type} (key : α → Str) {xs : List Str} {as : List α} (hl : xs.length = as.length) (names : List Str)
    (h : ∀ x ∈ xs, contains (lit "DROP") x = false) :
    ((List.zip xs as).filter fun p => key p.2 ∉ names ∧ contains (lit "DROP") p.1 = false).map (·.2) = as.filter fun a => key a ∉ names := by
  induction xs generalizing as with
  | nil =>
    cases as with
    | nil => rfl
    | cons _ _ => cases hl
  | cons x xs ih =>
    cases as with
    | nil => cases hl
    | cons a as =>
      have ih := ih (Nat.succ.inj hl) fun y hy => h y (by simp [hy])
      rw [List.zip_cons_cons]
      by_cases hn : key a ∈ names
      · rw [List.filter_cons_of_neg (by simp [hn]), List.filter_cons_of_neg (by simp [hn]), ih]
      · rw [List.filter_cons_of_pos (by simp [hn, h x (by simp)]), List.filter_cons_of_pos (by simp [hn]), List.map_cons, ih]

/-- **C81**, for files without the letters `DROP`: in the setting of C79 a run with `--skip-drop` that ends without an error keeps all tables and
views and creates all that are missing. -/
theorem C81_everything_stays_and_is_created_partial (fmtFloat : Str → Str) {σ : Type} (db : Db σ) (master : σ → List Lite.Object)
    (hdb : LiteKeeps db master) (s : σ) (ts us : List Written.Table) (vs ws : List NewView) (hu : LiteHolds (master s) us ws)
    (hou : OrderlyTables .sqlite3 us) (hot : OrderlyTables .sqlite3 ts) (how : OrderlyViews ws) (hov : OrderlyViews vs)
    (hs : ∀ u ∈ us, ∀ t ∈ ts, u.name.name = t.name.name → u = t) (hs' : ∀ w ∈ ws, ∀ v ∈ vs, w.name.name = v.name.name → w = v)
    (hx : ∀ t ∈ ts ++ us, ∀ v ∈ vs ++ ws, t.name.name ≠ v.name.name)
    (hn : ∀ t ∈ ts, t.ifNotExists = false ∧ t.name.schema = none ∧ ¬ Reserved t.name.name)
    (fs : Files) (o : Options) (he : o.export_ = false) (hdry : o.dryRun = false) (hskip : o.skipDrop = true) (file : Str)
    (hr : readFile fs o.sqlFile = .ok file)
    (hf : Consists .sqlite3 file (ts.map (fun t => .sentence (.table t)) ++ vs.map .view))
    (hc : ∀ x ∈ statementTexts file, NoComment x) (hdrop : ∀ x ∈ statementTexts file, ¬ MentionsDrop x)
    (herr : (run (Sql.env fmtFloat) .sqlite3 (Lite.database db master) fs o s).err = none) :
    LiteHolds (master (run (Sql.env fmtFloat) .sqlite3 (Lite.database db master) fs o s).state)
      (us ++ ts.filter fun t => t.name.name ∉ us.map (·.name.name)) (ws ++ vs.filter fun v => v.name.name ∉ ws.map (·.name.name)) := by
  obtain ⟨xs, ys, g1, g2, g3, h⟩ := C81_what_is_there fmtFloat db master hdb s ts us vs ws hu hou hot how hov hs hs' hx hn fs o he hdry hskip file hr hf hc herr
  have nd : ∀ x ∈ xs ++ ys, contains (lit "DROP") x = false := by
    intro x hm
    rw [← g1] at hm
    have := hdrop x hm
    rw [mentionsDrop_iff] at this
    simpa using this
  rw [kept_all (fun t : Written.Table => t.name.name) g2 _ fun x hm => nd x (by simp [hm]),
    kept_all (fun v : NewView => v.name.name) g3 _ fun x hm => nd x (by simp [hm])] at h
  exact h

/-- **C81** fails for statements with the letters `DROP`: if a file describes one table that is missing and its text contains them, say in the name
of a column, the run ends without an error and the table is not there. -/
theorem C81_wanted_table_is_left_out (fmtFloat : Str → Str) {σ : Type} (db : Db σ) (master : σ → List Lite.Object)
    (hdb : LiteKeeps db master) (s : σ) (t : Written.Table) (hu : LiteHolds (master s) [] []) (hot : OrderlyTables .sqlite3 [t])
    (hn : t.ifNotExists = false ∧ t.name.schema = none ∧ ¬ Reserved t.name.name)
    (fs : Files) (o : Options) (he : o.export_ = false) (hdry : o.dryRun = false) (hskip : o.skipDrop = true) (file : Str)
    (hr : readFile fs o.sqlFile = .ok file) (hf : Consists .sqlite3 file [.sentence (.table t)])
    (hc : ∀ x ∈ statementTexts file, NoComment x) (hdrop : ∀ x ∈ statementTexts file, MentionsDrop x)
    (herr : (run (Sql.env fmtFloat) .sqlite3 (Lite.database db master) fs o s).err = none) :
    LiteHolds (master (run (Sql.env fmtFloat) .sqlite3 (Lite.database db master) fs o s).state) [] [] := by
  have nov : OrderlyViews [] := ⟨by simp, List.nodup_nil, by simp, by simp, by simp⟩
  obtain ⟨xs, ys, g1, g2, g3, h⟩ := C81_what_is_there fmtFloat db master hdb s [t] [] [] [] hu ⟨by simp, List.nodup_nil, by simp⟩ hot nov nov
    (by simp) (by simp) (by simp) (by simpa using hn) fs o he hdry hskip file hr (by simpa using hf) hc herr
  have none1 : ((List.zip xs [t]).filter fun p => p.2.name.name ∉ ([] : List Written.Table).map (·.name.name) ∧ contains (lit "DROP") p.1 = false) = [] := by
    rw [List.filter_eq_nil_iff]
    rintro ⟨x, a⟩ hp
    have hm : x ∈ statementTexts file := by rw [g1]; exact List.mem_append_left _ (List.of_mem_zip hp).1
    have := (mentionsDrop_iff x).mp (hdrop x hm)
    simp [this]
  rw [none1] at h
  simpa using h

/-- **C81** fails for views with another query: for SQLite and SQL Server the script drops the view and creates it anew; with `--skip-drop` only the
second of the two statements is executed, while the view is still there. -/
theorem C81_changed_view_is_created_while_it_is_there (fmtFloat : Str → Str) (mode : Mode) (hm : mode = .sqlite3 ∨ mode = .mssql) (desired current : Str)
    (v w : NewView) (hs : Consists mode desired [.view v]) (hc : Consists mode current [.view w]) (h1 : v.query.Clear) (h2 : w.query.Clear)
    (hn : toLower v.name.name = toLower w.name.name) (hq : toLower w.query.text ≠ toLower v.query.text)
    (hdrop : ¬ MentionsDrop (lit "CREATE VIEW " ++ escapeTableName mode (toLower v.name.name) ++ lit " AS " ++ v.query.text)) :
    ∃ script, generateIdempotentDDLs (Sql.env fmtFloat) mode desired current = .ok script ∧
      kept true script = [lit "CREATE VIEW " ++ escapeTableName mode (toLower v.name.name) ++ lit " AS " ++ v.query.text] := by
  have one : ∀ {file : Str} {v : NewView}, Consists mode file [.view v] → v.query.Clear →
      ∃ text, parseDDLs (Sql.env fmtFloat) mode file = .ok [.view { statement := text, name := toLower v.name.name, definition := v.query.text }] ∧
        Normal mode [.view { statement := text, name := toLower v.name.name, definition := v.query.text }] := by
    intro file v hf hq
    obtain ⟨ds, p1, p2, -⟩ := C67_file_is_understood fmtFloat mode file _ hf (by
      intro s hs
      rw [List.mem_singleton.mp hs]
      exact hq)
    have hN : Normal mode ds := mixed_normal (xs := []) (vs := [v]) p2 (fun ds hx => by
      cases hx
      exact normal_nil mode) (by unfold ViewsDiffer; simp)
    cases p2 with
    | @cons _ d _ l hx hl =>
      cases hl
      have hx : d = .view _ := hx
      rw [hx] at p1 hN
      exact ⟨_, p1, hN⟩
  obtain ⟨a, p1, n1⟩ := one hs h1
  obtain ⟨b, p2, n2⟩ := one hc h2
  have hd : diff mode [.view { statement := a, name := toLower v.name.name, definition := v.query.text }]
      [.view { statement := b, name := toLower w.name.name, definition := w.query.text }] =
      .ok [.dropView (toLower v.name.name), .createView (toLower v.name.name) v.query.text] := by
    refine (diff_stateless mode _ _ n1.unique n2.unique _).2 ⟨?_, ?_,
      [.dropView (toLower v.name.name), .createView (toLower v.name.name) v.query.text], [], ?_, rfl, ?_⟩
    · exact n1.wellFormed
    · exact wellFormedCurrent_of_wellFormed n2.wellFormed n2.noAddIndex
    · simp only [concatMapM, defStmts, viewStmts, viewsOf, findViewByName, hn, List.find?_cons, decide_true, ne_eq, hq, not_false_eq_true, if_true]
      rcases hm with rfl | rfl <;> rfl
    · simp [viewsOf, cleanupViews, viewNames, containsString, hn]
  refine ⟨_, by unfold generateIdempotentDDLs; rw [p1, p2]; simp only [bind, Except.bind]; rw [hd]; rfl, ?_⟩
  have e1 : lit "DROP" <:+: Stmt.render mode (.dropView (toLower v.name.name)) := ⟨[], lit " VIEW " ++ escapeTableName mode (toLower v.name.name), rfl⟩
  have e2 : ¬ lit "DROP" <:+: Stmt.render mode (.createView (toLower v.name.name) v.query.text) := by
    rintro ⟨x, y, e⟩
    exact hdrop ⟨x, y, e.symm⟩
  simp only [kept, List.map_cons, List.map_nil]
  rw [List.filter_cons_of_neg (by simpa using e1), List.filter_cons_of_pos (by simpa using e2), List.filter_nil]
  rfl

/-! ### Examples -/

def exSkipOptions : Options := { exLiteOptions with skipDrop := true }

/-- With `--skip-drop`, the example of C79 ends with three tables and three views. -/
example : LiteHolds (run (Sql.env id) .sqlite3 (Lite.database exLiteKeeper (·.2)) exKeptFiles exSkipOptions (exKeptMaster, exKeptMaster)).state.2
    [exPlainTable, exKeptOld, exSecondTable] [exLiteView, exKeptGone, exKeptNew] := by
  have := C81_everything_stays_and_is_created_partial id exLiteKeeper (·.2) exLiteKeeper_keeps (exKeptMaster, exKeptMaster) [exPlainTable, exSecondTable]
    [exPlainTable, exKeptOld] [exLiteView, exKeptNew] [exLiteView, exKeptGone] exKeptMaster_holds exKeptTables_orderly.1 exKeptTables_orderly.2
    exKeptViews_orderly.1 exKeptViews_orderly.2 (by
      intro u hu t ht e
      simp only [List.mem_cons, List.not_mem_nil, or_false] at hu ht
      rcases hu with rfl | rfl <;> rcases ht with rfl | rfl <;> first | rfl | exact absurd e (by decide)) (by
      intro u hu t ht e
      simp only [List.mem_cons, List.not_mem_nil, or_false] at hu ht
      rcases hu with rfl | rfl <;> rcases ht with rfl | rfl <;> first | rfl | exact absurd e (by decide)) (by decide) (by decide)
    exKeptFiles exSkipOptions rfl rfl rfl exKeptFile rfl exKeptFile_consists.1 exKeptFile_consists.2 (by
      intro x hx
      rw [mentionsDrop_iff]
      revert x
      decide +kernel) (by decide +kernel)
  exact this

/-- A table with a column whose name contains the letters `DROP`. -/
def exDropped : Written.Table := { name := { name := lit "t" }, first := { name := txt "DROPPED", type := .integer "integer" none false false } }

def exDroppedFiles : Files where
  read _ := .error (txt "no such file")
  stdinIsTerminal := false
  stdin := .ok (txt "create table t (DROPPED integer);")

/-- It is not created, and no error is reported. -/
example : (run (Sql.env id) .sqlite3 (Lite.database exLiteKeeper (·.2)) exDroppedFiles exSkipOptions ([], [])).err = none ∧
    LiteHolds (run (Sql.env id) .sqlite3 (Lite.database exLiteKeeper (·.2)) exDroppedFiles exSkipOptions ([], [])).state.2 [] [] := by
  have herr : (run (Sql.env id) .sqlite3 (Lite.database exLiteKeeper (·.2)) exDroppedFiles exSkipOptions ([], [])).err = none := by decide +kernel
  have e : statementTexts (txt "create table t (DROPPED integer);") = [txt "create table t (DROPPED integer)"] := by decide +kernel
  refine ⟨herr, C81_wanted_table_is_left_out id exLiteKeeper (·.2) exLiteKeeper_keeps ([], []) exDropped
    ⟨.nil, .nil, by simp, by simp, by simp⟩ ⟨?_, by decide, ?_⟩ (by decide) exDroppedFiles exSkipOptions rfl rfl rfl
    (txt "create table t (DROPPED integer);") rfl ?_ ?_ ?_ herr⟩
  · simp [exDropped, Sentence.Clear, Table.Clear, Col.Clear, Ty.Known, integerWords, clearOptions, Sentence.InRange, Sentence.indexColumns]
  · intro t ht
    rw [List.mem_singleton.mp ht]
    exact ⟨by decide +kernel, by decide +kernel, by decide +kernel, by decide +kernel, by decide +kernel, fun h => by cases h⟩
  · unfold Consists
    rw [e]
    exact .cons (layout_of_test [("", "create"), (" ", "table"), (" ", "t"), (" ", "("), ("", "DROPPED"), (" ", "integer"), ("", ")")] (by decide +kernel)) .nil
  · unfold NoComment
    rw [e]
    decide +kernel
  · intro x hx
    rw [e] at hx
    rw [mentionsDrop_iff, List.mem_singleton.mp hx]
    decide +kernel

/-- A view with another query is created while it is there. -/
example : ∃ script, generateIdempotentDDLs (Sql.env id) .sqlite3 (txt "CREATE VIEW v AS SELECT t.a FROM t") (txt "CREATE VIEW v AS SELECT t.a x FROM t") = .ok script ∧
    kept true script = [lit "CREATE VIEW " ++ escapeTableName .sqlite3 (lit "v") ++ lit " AS " ++ exOtherView.query.text] := by
  refine C81_changed_view_is_created_while_it_is_there id .sqlite3 (.inl rfl) _ _ exOtherView exLiteView ?_ ?_ exOtherView_clear exLiteView_clear rfl
    (by decide +kernel) (by rw [mentionsDrop_iff]; decide +kernel)
  · unfold Consists
    rw [show statementTexts (txt "CREATE VIEW v AS SELECT t.a FROM t") = [txt "CREATE VIEW v AS SELECT t.a FROM t"] by decide +kernel]
    exact .cons (layout_of_test [("", "CREATE"), (" ", "VIEW"), (" ", "v"), (" ", "AS"), (" ", "SELECT"), (" ", "t"), ("", "."), ("", "a"), (" ", "FROM"), (" ", "t")]
      (by decide +kernel)) .nil
  · unfold Consists
    rw [show statementTexts (txt "CREATE VIEW v AS SELECT t.a x FROM t") = [txt "CREATE VIEW v AS SELECT t.a x FROM t"] by decide +kernel]
    exact .cons (layout_of_test [("", "CREATE"), (" ", "VIEW"), (" ", "v"), (" ", "AS"), (" ", "SELECT"), (" ", "t"), ("", "."), ("", "a"), (" ", "x"), (" ", "FROM"), (" ", "t")]
      (by decide +kernel)) .nil

end Sqldef
